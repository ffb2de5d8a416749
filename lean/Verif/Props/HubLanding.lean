import Verif.Props.Hub
/-!
# The landing page of a central system among strangers: C108, continued

C40 is about the registry by itself.  Here it is put to the central system with its sockets: the
number on the page (cs/cs.go:75-85) counts the ids under which somebody is registered, and anybody
can make it as large as they like.
-/
namespace Verif.Hub
open Conn Codec Ocppj

variable {F : FloatFmt} {o : Order} {tr tr' : List (Ev F o)} {s s' : St F o}

/-- **C108** The number on the landing page is the number of distinct ids under which somebody is registered. -/
theorem C108_landing (h : Exec tr s) :
    ∃ ids : List String, ids.Nodup ∧ (∀ id, id ∈ ids ↔ Registered tr id) ∧ s.reg.landing = ids.length := by
  obtain ⟨trR, hR, -⟩ := h.inv.reg
  refine ⟨List.map (fun p : String × Nat => p.1) s.reg.conns, hR.inv.wf, fun id => ?_, by simp [Registry.St.landing]⟩
  rw [← GoMap.get_isSome]
  have := (h.conns id).2
  cases hg : s.reg.conns.get id with
  | none => simp only [hg, true_iff] at this; simpa using this
  | some n => simp only [hg, reduceCtorEq, false_iff, not_not] at this; simpa using this

theorem run_append {a b c : St F o} {t t' : List (Ev F o)} (h : Run a t b) (h' : Run b t' c) : Run a (t ++ t') c := by
  induction h' with
  | nil => simpa using h
  | snoc _ hs ih => rw [← List.append_assoc]; exact ih.snoc hs

theorem put_new {V : Type} (m : GoMap V) (k : String) (v : V) (h : m.get k = none) : (m.put k v).length = m.length + 1 := by
  have : m.del k = m := by
    refine List.filter_eq_self.2 fun p hp => ?_
    have hk : k ∉ m.map (·.1) := fun hk => by simpa [h] using (GoMap.get_isSome m k).2 hk
    simp only [bne_iff_ne, ne_eq]
    rintro rfl
    exact hk (List.mem_map_of_mem hp)
  simp [GoMap.put, this]

/-- **C108** Anybody can make that number as large as they like: at any time, by connecting under one path after another; nobody who
is registered is disturbed. -/
theorem C108_inflated (h : Exec tr s) (ha : s.alive) (rs : List (Upgrade × Text))
    (hrs : ∀ p ∈ rs, Http.serve p.1.toRequest = .websocket p.2 ∧ Http.OpeningHandshake p.1.toWsRequest)
    (hnew : ∀ p ∈ rs, ¬ Registered tr (String.ofList p.2)) (hd : (rs.map (·.2)).Nodup) (url : String) :
    ∃ tr' s', Run s tr' s' ∧ s'.alive ∧ s'.reg.landing = s.reg.landing + rs.length ∧
      ∀ id, Registered tr id → s'.reg.getServiceOf id "V16" url = s.reg.getServiceOf id "V16" url := by
  induction rs generalizing tr s with
  | nil => exact ⟨[], s, .nil, ha, rfl, fun _ _ => rfl⟩
  | cons p rs ih =>
    obtain ⟨r, id⟩ := p
    obtain ⟨hs, ho⟩ := hrs _ List.mem_cons_self
    have hacc := accept_names hs ho
    have r1 := Run.snoc (.nil (s := s)) (Step.upgrade ha hacc)
    have r2 := Run.snoc r1 (Step.register (n := s.members.length) (m := ⟨r, Conn.init _, none⟩) (id := id) (alive_append ha) (by simp) rfl hacc
      (Registry.Step.handshake (String.ofList id)))
    have hx := h.append r2
    have hn : s.reg.conns.get (String.ofList id) = none := (h.conns _).2.2 (hnew _ List.mem_cons_self)
    obtain ⟨trR, hR, -⟩ := h.inv.reg
    obtain ⟨-, -, -, -, hconns, -⟩ := Registry.register_eq hR.inv (String.ofList id)
    have hget : ∀ id', id' ≠ String.ofList id → (s.reg.register (String.ofList id)).conns.get id' = s.reg.conns.get id' := by
      intro id' hne; rw [hconns, GoMap.get_put, if_neg hne]
    have hal : (⟨s.reg.register (String.ofList id), (s.members ++ [(⟨r, Conn.init _, none⟩ : Member F o)]).set s.members.length
        (⟨r, Conn.init _, some s.reg.table.length⟩ : Member F o)⟩ : St F o).alive := by
      intro m hm
      simp only [set_last, List.mem_append, List.mem_singleton] at hm
      rcases hm with hm | rfl
      · exact ha m hm
      · rfl
    simp only [List.map_cons, List.nodup_cons] at hd
    have hdiff : ∀ p ∈ rs, String.ofList p.2 ≠ String.ofList id := by
      intro p hp he
      have := List.mem_map_of_mem (f := fun p : Upgrade × Text => p.2) hp
      rw [String.ofList_injective he] at this
      exact hd.1 this
    obtain ⟨tr', s', r3, h3, h4, h5⟩ := ih hx hal (fun p hp => hrs p (List.mem_cons_of_mem _ hp)) (fun p hp => by
      rw [← (hx.conns _).2]
      exact (hget _ (hdiff p hp)).trans ((h.conns _).2.2 (hnew p (List.mem_cons_of_mem _ hp)))) hd.2
    refine ⟨_, s', run_append r2 r3, h3, ?_, fun id' hid' => ?_⟩
    · rw [h4]
      simp only [Registry.St.landing, hconns, put_new _ _ _ hn, List.length_cons]
      omega
    · have hne : id' ≠ String.ofList id := fun he => hnew _ List.mem_cons_self (he ▸ hid')
      rw [h5 id']
      · unfold Registry.St.getServiceOf
        simp only [hget id' hne]
      · have := (hx.conns id').2
        by_contra hc
        have hg := (hget id' hne).symm.trans (this.2 hc)
        exact (h.conns id').2.1 hg hid'

theorem init_alive : (init F o).alive := by intro m hm; simp [init] at hm

/-- Two strangers at a new central system: the page counts 2. -/
example : ∃ (tr : List (Ev F o)) (s : St F o), Exec tr s ∧ s.alive ∧ s.reg.landing = 2 := by
  have hq : ∀ path : Text, Http.serve (Http.wsDialRequest "V16" "AAAAAAAAAAAAAAAAAAAAAA==" path).toRequest = .websocket (path.drop 1) →
      Http.OpeningHandshake (Http.wsDialRequest "V16" "AAAAAAAAAAAAAAAAAAAAAA==" path) := fun path _ =>
    ⟨rfl, (Http.isUpgrade_iff _).1 (by simp [Http.Request.isUpgrade, Http.wsDialRequest, Http.dialRequest]),
      by simp [Http.wsDialRequest], by simp [Http.wsDialRequest]⟩
  have h1 : Http.serve (Http.wsDialRequest "V16" "AAAAAAAAAAAAAAAAAAAAAA==" "/a".toList).toRequest = .websocket ['a'] := by decide +kernel
  have h2 : Http.serve (Http.wsDialRequest "V16" "AAAAAAAAAAAAAAAAAAAAAA==" "/b".toList).toRequest = .websocket ['b'] := by decide +kernel
  obtain ⟨tr', s', h3, h4, h5, -⟩ := C108_inflated (F := F) (o := o) .nil init_alive
    [(⟨Http.wsDialRequest "V16" "AAAAAAAAAAAAAAAAAAAAAA==" "/a".toList, []⟩, ['a']),
     (⟨Http.wsDialRequest "V16" "AAAAAAAAAAAAAAAAAAAAAA==" "/b".toList, []⟩, ['b'])]
    (by
      intro p hp
      simp only [List.mem_cons, List.not_mem_nil, or_false] at hp
      rcases hp with rfl | rfl
      · exact ⟨h1, hq _ h1⟩
      · exact ⟨h2, hq _ h2⟩)
    (by rintro p - ⟨n, k, hr, -⟩; simp [Accepted] at hr) (by decide) ""
  exact ⟨_, s', Exec.append .nil h3, h4, h5⟩

end Verif.Hub
