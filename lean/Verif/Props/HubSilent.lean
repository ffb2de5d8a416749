import Verif.Props.HubWaits
import Verif.Props.Silent
/-!
# A stranger that says nothing: C111 among strangers

What C111 says of a charge point that falls silent, for a client that never says anything: one opening
handshake is enough to keep a charge point from being reached for as long as the client likes.
-/
namespace Verif.Hub
open Conn Codec Ocppj

variable {F : FloatFmt} {o : Order} {tr tr' : List (Ev F o)} {s s' : St F o}

/-- **C111** The central system finishes only with connections that are cut off. -/
theorem C111_endedCut (h : Exec tr s) {n : Nat} (he : Ended tr n) : CutOff tr n := by
  obtain ⟨k, id, ha, hcl⟩ := he
  obtain ⟨trR, hR, -, -, hR3⟩ := h.inv.reg
  have hm : Registry.Ev.cleanup k ∈ trR := by
    rw [← mem_regEvents, ← hR3] at hcl; exact (List.mem_filter.1 hcl).1
  obtain ⟨c, h1, h2⟩ := (Registry.Exec.hist hR).cleaned k |>.1 hm
  have h3 := (Registry.Exec.hist hR).order k c h1 (by rw [h2]; decide)
  obtain ⟨m, c', h4, h5, h6, -⟩ := h.inv.accepted n k id ha
  obtain ⟨c'', h7, h8, -⟩ := h.inv.regd n k m h4 h5
  obtain rfl := Option.some.inj (h1.symm.trans h7)
  exact (h.cutOff h4).1 (h8.symm.trans h3)

/-- **C111** Whoever was the last to be registered under an id, and is then silent, is what `GetServiceOf` gives until another one is
registered under it, and the channel of `WaitDisconnect` is open; whatever happens elsewhere, and whatever is sent to it. -/
theorem C111_stranger (h : Exec tr s) (hr : Run s tr' s') {n k : Nat} {id : String} (hl : Latest tr n k id) (ho : ¬ CutOff tr n)
    (hq : Silent .cs (connEvents n tr')) (hn : ∀ m j, ¬ Accepted tr' m j id) :
    (∀ url, s'.reg.getServiceOf id "V16" url = .ok (.json k)) ∧ s'.reg.discClosed (s'.reg.waitDisconnect id) = false ∧
    ¬ Ended (tr ++ tr') n := by
  have hx := h.append hr
  have hcut : ¬ CutOff (tr ++ tr') n := by
    rintro ⟨e, he, hc⟩
    rw [connEvents_append] at he
    rcases List.mem_append.1 he with he | he
    · exact ho ⟨e, he, hc⟩
    · exact (hq e he).2 hc
  have hend : ¬ Ended (tr ++ tr') n := fun he => hcut (C111_endedCut hx he)
  have hacc : Accepted (tr ++ tr') n k id := List.mem_append_left _ hl.1
  have hlat : Latest (tr ++ tr') n k id := by
    refine ⟨hacc, fun m j hm => ?_⟩
    rcases List.mem_append.1 hm with g | g
    · exact hl.2 m j g
    · exact absurd g (hn m j)
  refine ⟨fun url => ((C108_service hx id url).1 k).2 ⟨⟨n, k, hacc, hend⟩, n, hlat⟩, ?_, hend⟩
  rw [← Bool.not_eq_true, C108_waitDisconnect hx .nil, List.append_nil]
  rintro (g | ⟨m, j, g1, g2⟩)
  · exact g ⟨n, k, hacc, hend⟩
  · obtain rfl : j = k := Nat.le_antisymm (hlat.2 _ _ g1.1) (g1.2 _ _ hacc)
    obtain rfl := (hx.accepted_unique g1.1 hacc).2 ⟨rfl, rfl⟩
    exact hcut g2

/-- **C111** So at any time anybody can, with one opening handshake under the path `/id` and nothing else, make a charge point
unreachable: for as long as the stranger says nothing and nobody else is registered as `id`, `GetServiceOf(id, V16)` gives the
stranger's connection, `WaitDisconnect(id)` says that it is there, and no `Send` to it is answered. -/
theorem C111_squatter (h : Exec tr s) (ha : s.alive) (r : Upgrade) (id : Text) (hs : Http.serve r.toRequest = .websocket id)
    (ho : Http.OpeningHandshake r.toWsRequest) :
    ∃ n k s₁, Run s [.upgrade n r, .register n k (String.ofList id)] s₁ ∧ ∀ tr' s', Run s₁ tr' s' → Silent .cs (connEvents n tr') →
      (∀ m j, ¬ Accepted tr' m j (String.ofList id)) →
      (∀ url, s'.reg.getServiceOf (String.ofList id) "V16" url = .ok (.json k)) ∧
      s'.reg.discClosed (s'.reg.waitDisconnect (String.ofList id)) = false ∧
      ∀ i a, Conn.Ev.finish (S := ocppj F o .cs) i a ∉ connEvents n tr' := by
  obtain ⟨n, k, s₁, h1, hfresh, h2⟩ := C108_takeover h ha r id hs ho ""
  have hx := h.append h1
  obtain ⟨-, n', hl'⟩ := ((C108_service hx _ "").1 k).1 h2
  have hacc : Accepted (tr ++ [.upgrade n r, .register n k (String.ofList id)]) n k (String.ofList id) := by simp [Accepted]
  obtain rfl := (hx.accepted_unique hl'.1 hacc).2 ⟨rfl, rfl⟩
  have hnil : connEvents n' (tr ++ [.upgrade n' r, .register n' k (String.ofList id)]) = [] := by
    have : connEvents n' tr = [] := by
      refine h.inv.none n' (Nat.not_lt.1 fun hlt => ?_)
      obtain ⟨m, hm⟩ : ∃ m, s.members[n']? = some m := ⟨_, List.getElem?_eq_getElem hlt⟩
      exact hfresh _ (h.inv.named n' m hm).1
    rw [connEvents_append, this]; simp [connEvents]
  have hopen : ¬ CutOff (tr ++ [.upgrade n' r, .register n' k (String.ofList id)]) n' := by
    rintro ⟨e, he, -⟩; rw [hnil] at he; cases he
  refine ⟨n', k, s₁, h1, fun tr' s' hr hq hn => ?_⟩
  obtain ⟨g1, g2, -⟩ := C111_stranger hx hr hl' hopen hq hn
  refine ⟨g1, g2, fun i a hf => ?_⟩
  have hxx := hx.append hr
  obtain ⟨fin, hc⟩ := C108_connection hxx n' r (by simp [Upgraded])
  rw [connEvents_append, hnil, List.nil_append] at hc
  obtain ⟨j, t, mid, q, h3, h4, -⟩ := (C21_responses_never_crossed hc).1 i a hf
  exact (hq _ (h4.subset (by simp : Conn.Ev.read (S := ocppj F o .cs) j t ∈ _))).1 j t rfl

/-- Somebody opens a websocket under `/a` at a new central system and says nothing; the central system sends to it. -/
example : ∃ (r : Upgrade) (s₁ s' : St F o) (about : Metadata) (q : Req),
    Exec [.upgrade 0 r, .register 0 0 "a"] s₁ ∧ Latest [Ev.upgrade (F := F) (o := o) 0 r, .register 0 0 "a"] 0 0 "a" ∧
    Run s₁ [.conn 0 about (.send (S := ocppj F o .cs) 0 "1" q)] s' ∧
    Silent .cs (connEvents 0 [Ev.conn 0 about (.send (S := ocppj F o .cs) 0 "1" q)]) ∧
    s'.reg.getServiceOf "a" "V16" "" = .ok (.json 0) := by
  have h1 : Http.serve (Http.wsDialRequest "V16" "AAAAAAAAAAAAAAAAAAAAAA==" "/a".toList).toRequest = .websocket ['a'] := by decide +kernel
  have ho : Http.OpeningHandshake (Http.wsDialRequest "V16" "AAAAAAAAAAAAAAAAAAAAAA==" "/a".toList) :=
    ⟨rfl, (Http.isUpgrade_iff _).1 (by simp [Http.Request.isUpgrade, Http.wsDialRequest, Http.dialRequest]),
      by simp [Http.wsDialRequest], by simp [Http.wsDialRequest]⟩
  let r : Upgrade := ⟨Http.wsDialRequest "V16" "AAAAAAAAAAAAAAAAAAAAAA==" "/a".toList, []⟩
  have hacc := accept_names (r := r) h1 ho
  have x1 := Exec.snoc (Exec.nil (F := F) (o := o)) (Step.upgrade init_alive hacc)
  let s₁ : St F o := ⟨(init F o).reg.register "a", [⟨r, Conn.init _, some 0⟩]⟩
  have x2 : Exec _ s₁ := Exec.snoc x1 (Step.register (n := 0) (m := ⟨r, Conn.init _, none⟩) (id := ['a']) (alive_append init_alive) rfl rfl hacc
    (Registry.Step.handshake _))
  obtain ⟨f, hf⟩ := clearCache_encodes F o "1"
  have hl : Latest [Ev.upgrade (F := F) (o := o) 0 r, .register 0 0 "a"] 0 0 "a" := by
    refine ⟨by simp [Accepted], fun m j hm => ?_⟩
    simp [Accepted] at hm; omega
  have x3 := Run.snoc (.nil (s := s₁)) (Step.conn (n := 0) (k := 0) (m := ⟨r, Conn.init _, some 0⟩)
    (c := ⟨"a", .registered, false, false, false⟩)
    (by intro m hm; simp only [s₁, List.mem_singleton] at hm; subst hm; rfl) rfl rfl
    (by simp [s₁, Registry.register_table, init, Registry.init])
    (Conn.Step.send (S := ocppj F o .cs) (s := Conn.init _) (id := "1") (r := (⟨.csreqClearCache, .struct []⟩ : Req)) rfl (by simp [Conn.init]) hf)
    (by simp [World.ofLoop]))
  have hq : ∀ about : Metadata, Silent .cs (connEvents 0 [Ev.conn 0 about (.send (S := ocppj F o .cs) 0 "1" (⟨.csreqClearCache, .struct []⟩ : Req))]) := by
    intro about e he
    simp [connEvents] at he
    subst he
    exact ⟨by simp, by simp [Conn.Ev.Closes]; rfl⟩
  exact ⟨r, _, _, _, _, x2, hl, x3, hq _, (C111_stranger x2 x3 hl (by rintro ⟨e, he, -⟩; simp [connEvents] at he) (hq _)
    (by simp [Accepted])).1 ""⟩

end Verif.Hub
