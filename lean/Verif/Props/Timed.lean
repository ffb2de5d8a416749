import Verif.Spec.Timed
import Verif.Props.Conn
import Batteries.Data.List.Perm
/-!
# The time limit of a Send (C92)
-/
namespace Verif.Conn
variable {S : Sem} {side : Side}

theorem TRun.exec {tr : List (Nat × Ev S)} {s : St S} (h : TRun side tr s) : Exec side (tr.map Prod.snd) s := by
  induction h with
  | nil => exact .nil
  | snoc _ hs _ ih => rw [List.map_append]; exact .snoc ih hs

theorem Prompt.run {tr : List (Nat × Ev S)} {s : St S} (h : Prompt side tr s) : TRun side tr s := by
  induction h with
  | nil => exact .nil
  | snoc _ hs ha _ ih => exact .snoc ih hs ha

/-- Where a `Send` is after its request has been written. -/
theorem written_state {tr : List (Ev S)} {s : St S} (h : Exec side tr s) {i : Nat} {f : S.Frame} (hw : Ev.writeCall i (some f) ∈ tr) :
    ∃ x, s.senders[i]? = some x ∧ (x.phase = .waiting ∨ (∃ a, x.phase = .received a) ∨ ∃ o, x.phase = .done o) := by
  induction h with
  | nil => cases hw
  | snoc h1 hs ih =>
    rename_i tr0 e s1 s2
    rcases List.mem_append.1 hw with hw | hw
    · obtain ⟨x, hx, hp⟩ := ih hw
      cases hs <;> simp only [St.setReader, St.setPhase, List.getElem?_append, List.getElem?_set] <;> grind
    · have hwe := List.mem_singleton.1 hw
      cases hs with
      | writeOk k1 k2 k3 k4 k5 =>
        cases hwe
        exact ⟨_, List.getElem?_set_self (List.getElem?_eq_some_iff.1 k2).1, .inl rfl⟩
      | _ => cases hwe

theorem waiting_written {tr : List (Ev S)} {s : St S} (h : Exec side tr s) {i : Nat} {x : Sender S} (hx : s.senders[i]? = some x) (hp : x.phase = .waiting) :
    ∃ f, Ev.writeCall i (some f) ∈ tr := by
  induction h generalizing x with
  | nil => simp [init] at hx
  | snoc h1 hs ih =>
    rename_i tr0 e s1 s2
    have ih' := fun (y : Sender S) (hy : s1.senders[i]? = some y) (hp : y.phase = .waiting) => ih hy hp
    clear ih
    cases hs <;> simp only [St.setReader, St.setPhase, List.getElem?_append, List.getElem?_set] at hx <;> grind

/-- A request is written once. -/
theorem write_once {tr : List (Nat × Ev S)} {s : St S} (h : TRun side tr s) {i w w' : Nat} {f f' : S.Frame} (h1 : (w, .writeCall i (some f)) ∈ tr)
    (h2 : (w', .writeCall i (some f')) ∈ tr) : w = w' := by
  induction h with
  | nil => cases h1
  | snoc h hs ha ih =>
    rename_i tr0 t e s1 s2
    have no : ∀ {w : Nat} {f g : S.Frame}, (w, Ev.writeCall i (some f)) ∈ tr0 → e ≠ .writeCall i (some g) := by
      intro w f g hm he
      subst he
      obtain ⟨x, hx, hp⟩ := written_state h.exec (List.mem_map.2 ⟨_, hm, rfl⟩)
      cases hs with
      | writeOk k1 k2 k3 k4 k5 =>
        rw [hx] at k2
        cases k2
        rw [k3] at hp
        rcases hp with hp | ⟨a, hp⟩ | ⟨o, hp⟩ <;> cases hp
    rcases List.mem_append.1 h1 with g1 | g1 <;> rcases List.mem_append.1 h2 with g2 | g2
    · exact ih g1 g2
    · exact absurd (congrArg Prod.snd (List.mem_singleton.1 g2)).symm (no g1)
    · exact absurd (congrArg Prod.snd (List.mem_singleton.1 g1)).symm (no g2)
    · exact (congrArg Prod.fst (List.mem_singleton.1 g1)).trans (congrArg Prod.fst (List.mem_singleton.1 g2)).symm

/-- **C92** A `Send` does not time out before its time. -/
theorem C92_notBefore {tr : List (Nat × Ev S)} {s : St S} (h : TRun side tr s) {t i : Nat} (ht : (t, .timeout i) ∈ tr) :
    ∃ w f, (w, Ev.writeCall i (some f)) ∈ tr ∧ w + 60000 ≤ t := by
  induction h with
  | nil => cases ht
  | snoc h hs ha ih =>
    rename_i tr0 t' e s1 s2
    rcases List.mem_append.1 ht with ht | ht
    · obtain ⟨w, f, k1, k2⟩ := ih ht
      exact ⟨w, f, by simp [k1], k2⟩
    · cases List.mem_singleton.1 ht
      have hph : ∃ f, Ev.writeCall i (some f) ∈ tr0.map Prod.snd := by
        cases hs with
        | timeout k1 k2 k3 => exact waiting_written h.exec k2 k3
      obtain ⟨f, hf⟩ := hph
      obtain ⟨⟨w, e⟩, hm, he⟩ := List.mem_map.1 hf
      cases he
      exact ⟨w, f, by simp [hm], ha.2 i rfl w f hm⟩

theorem last_le {tr : List (Nat × Ev S)} {t n : Nat} (hl : ∀ x ∈ tr.getLast?, t = x.1) (hne : tr ≠ []) (hb : ∀ x ∈ tr, x.1 ≤ n) : t ≤ n := by
  obtain ⟨x, hx⟩ := Option.isSome_iff_exists.1 (List.getLast?_isSome.2 hne)
  rw [hl x hx]
  exact hb x (List.mem_of_getLast? hx)

/-- Where a `Send` is after its request has been written, and how late it can be. -/
theorem Prompt.limit {tr : List (Nat × Ev S)} {s : St S} (h : Prompt side tr s) {w i : Nat} {f : S.Frame} (hw : (w, .writeCall i (some f)) ∈ tr) :
    (∃ r e, (r, e) ∈ tr ∧ e.returns i = true ∧ r ≤ w + limit) ∨
      ((∀ x ∈ tr, x.1 ≤ w + limit) ∧ ∃ x, s.senders[i]? = some x ∧ (x.phase = .waiting ∨ ∃ a, x.phase = .received a)) := by
  induction h with
  | nil => cases hw
  | snoc h hs ha hp ih =>
    rename_i tr0 t e s1 s2
    rcases List.mem_append.1 hw with hw | hw
    · rcases ih hw with ⟨r, e', k1, k2, k3⟩ | ⟨k1, x, k2, k3⟩
      · exact .inl ⟨r, e', by simp [k1], k2, k3⟩
      · have hcr : s1.crashed = false := by cases hs <;> assumption
        have ht : t ≤ w + Conn.limit := by
          rcases k3 with k3 | ⟨a, k3⟩
          · exact hp.2 i x w f k2 k3 hw
          · exact last_le (hp.1 ⟨_, _, rfl, .finish hcr k2 k3⟩) (List.ne_nil_of_mem hw) k1
        by_cases hr : e.returns i = true
        · exact .inl ⟨t, e, by simp, hr, ht⟩
        · refine .inr ⟨?_, ?_⟩
          · intro y hy
            rcases List.mem_append.1 hy with hy | hy
            · exact k1 y hy
            · rw [List.mem_singleton.1 hy]; exact ht
          · clear ih hp ha
            cases hs <;> simp only [St.setReader, St.setPhase, List.getElem?_append, List.getElem?_set, Ev.returns] at * <;> grind
    · cases List.mem_singleton.1 hw
      refine .inr ⟨?_, ?_⟩
      · intro y hy
        rcases List.mem_append.1 hy with hy | hy
        · exact Nat.le_trans (ha.1 y hy) (Nat.le_add_right _ _)
        · rw [List.mem_singleton.1 hy]; exact Nat.le_add_right _ _
      · cases hs with
        | writeOk k1 k2 k3 k4 k5 =>
          exact ⟨_, List.getElem?_set_self (List.getElem?_eq_some_iff.1 k2).1, .inl rfl⟩

/-- **C92** If the machine is fast compared with the clock: a `Send` whose request was written at time `w` has returned by `w` + 60 s, whatever the
peer does or does not do. -/
theorem C92_limit {tr : List (Nat × Ev S)} {s : St S} (h : Prompt side tr s) {w i : Nat} {f : S.Frame} (hw : (w, .writeCall i (some f)) ∈ tr)
    {t : Nat} {e : Ev S} (ht : (t, e) ∈ tr) (hl : w + 60000 < t) : ∃ r e, (r, e) ∈ tr ∧ e.returns i = true ∧ r ≤ w + 60000 := by
  rcases h.limit hw with k | ⟨k, -⟩
  · exact k
  · exact absurd (k _ ht) (Nat.not_le_of_lt hl)

theorem Prompt.split {tr : List (Nat × Ev S)} {s : St S} (h : Prompt side tr s) {pre post : List (Nat × Ev S)} {t : Nat} {e : Ev S}
    (he : tr = pre ++ (t, e) :: post) : ∃ s0 s1, Prompt side pre s0 ∧ Step side s0 e s1 ∧ Allowed pre t e ∧ InTime side pre s0 t := by
  induction h generalizing post with
  | nil => simp at he
  | snoc h hs ha hp ih =>
    rename_i tr0 t' e' s1 s2
    rcases List.eq_nil_or_concat post with rfl | ⟨post', y, rfl⟩
    · obtain ⟨h1, h2⟩ := List.append_inj' he rfl
      cases h2
      subst h1
      exact ⟨s1, s2, h, hs, ha, hp⟩
    · rw [List.concat_eq_append, show pre ++ (t, e) :: (post' ++ [y]) = (pre ++ (t, e) :: post') ++ [y] by simp] at he
      exact ih (List.append_inj' he rfl).1

/-- A written request whose `Send` has not returned and has not been given an answer is waited for. -/
theorem still_waiting {tr : List (Ev S)} {s : St S} (h : Exec side tr s) {i : Nat} {f : S.Frame} (hw : Ev.writeCall i (some f) ∈ tr)
    (hd : ∀ k, Ev.deliver k i ∉ tr) (hn : ∀ e ∈ tr, e.returns i = false) : ∃ x, s.senders[i]? = some x ∧ x.phase = .waiting := by
  induction h with
  | nil => cases hw
  | snoc h1 hs ih =>
    rename_i tr0 e s1 s2
    rcases List.mem_append.1 hw with hw | hw
    · obtain ⟨x, hx, hp⟩ := ih hw (fun k hk => hd k (by simp [hk])) (fun e he => hn e (by simp [he]))
      have hd' := fun k => hd k
      have hn' := hn e (by simp)
      cases hs <;> simp only [St.setReader, St.setPhase, List.getElem?_append, List.getElem?_set, Ev.returns] at * <;> grind
    · have hwe := List.mem_singleton.1 hw
      cases hs with
      | writeOk k1 k2 k3 k4 k5 =>
        cases hwe
        exact ⟨_, List.getElem?_set_self (List.getElem?_eq_some_iff.1 k2).1, rfl⟩
      | _ => cases hwe

/-- What the reader makes of an answer. -/
theorem afterRead_answer {tr : List (Ev S)} {s : St S} (h : Exec side tr s) {i : Nat} {x : Sender S} (hx : s.senders[i]? = some x)
    (hp : x.phase = .waiting) {g : S.Frame} {a : Answer S} (ha : AnswerTo x.id (S.action x.req) g a) :
    afterRead s g = some (.toSender (some i) a) := by
  have hm := Exec.minv h
  have hsent := (hm.sent x.id (S.action x.req)).2 ⟨i, x, hx, rfl, rfl, by simp [hp, Phase.inSent]⟩
  have hchan := (hm.chan x.id i).2 ⟨x, hx, rfl, by simp [hp, Phase.inChan]⟩
  unfold afterRead
  cases ha with
  | resp h1 h2 => simp [h1, hsent, h2, hchan]
  | code h1 h2 => simp [h1, hsent, h2, hchan]
  | callErr h1 => simp [h1, hsent, hchan]

/-- The way of an answer from the socket to the return of `Send`. -/
inductive Way (tr : List (Nat × Ev S)) (s : St S) (t k i : Nat) (id : String) (q : S.Req) (g : S.Frame) (a : Answer S) : Prop where
  | got (x : Sender S) : s.readers[k]? = some (.got g) → s.senders[i]? = some x → x.phase = .waiting → x.id = id → x.req = q → Way tr s t k i id q g a
  | held (x : Sender S) : s.readers[k]? = some (.toSender (some i) a) → s.senders[i]? = some x → x.phase = .waiting → Way tr s t k i id q g a
  | received (x : Sender S) : s.senders[i]? = some x → x.phase = .received a → Way tr s t k i id q g a
  | done : (t, .finish i a) ∈ tr → Way tr s t k i id q g a

theorem way_step {tr : List (Nat × Ev S)} {s s' : St S} {t w k i : Nat} {id : String} {q : S.Req} {g f : S.Frame} {a : Answer S} {e : Ev S}
    (h : Prompt side tr s) (ha : AnswerTo id (S.action q) g a) (hw : (w, .writeCall i (some f)) ∈ tr) (hlt : t < w + 60000)
    (hway : Way tr s t k i id q g a) (hs : Step side s e s') (hal : Allowed tr t e) : Way (tr ++ [(t, e)]) s' t k i id q g a := by
  have hinv := Exec.inv h.run.exec
  have hto : e ≠ .timeout i := fun he => by
    have := hal.2 i he w f hw
    simp only [limit] at this
    omega
  rcases hway with ⟨x, k1, k2, k3, k4, k5⟩ | ⟨x, k1, k2, k3⟩ | ⟨x, k2, k3⟩ | k1
  · have hact := hinv.act k _ k1 rfl
    have hafter := afterRead_answer h.run.exec k2 k3 (by rw [k4, k5]; exact ha)
    have hun : ∀ k' j b, s.readers[k']? = some (.toSender j b) → k' = k := fun k' j b hk' => by
      have := hinv.act k' _ hk' rfl
      omega
    by_cases hd : e = .dispatch k
    · subst hd
      cases hs with
      | dispatch h1 h2 h3 =>
        rw [k1] at h2
        cases h2
        rw [hafter] at h3
        cases h3
        exact .held x (by simp [St.setReader, (List.getElem?_eq_some_iff.1 k1).1]) k2 k3
      | dispatchPanic h1 h2 h3 =>
        rw [k1] at h2
        cases h2
        rw [hafter] at h3
        cases h3
    · have hb : ∃ x', s'.readers[k]? = some (.got g) ∧ s'.senders[i]? = some x' ∧ x'.phase = .waiting ∧ x'.id = id ∧ x'.req = q := by
        clear hafter hal h
        refine ⟨x, ?_⟩
        cases hs <;> simp only [St.setReader, St.setPhase, List.getElem?_append, List.getElem?_set] <;> grind
      obtain ⟨x', k1, k2, k3, k4, k5⟩ := hb
      exact .got x' k1 k2 k3 k4 k5
  · have hact := hinv.act k _ k1 rfl
    have hun : ∀ k' j b, s.readers[k']? = some (.toSender j b) → k' = k := fun k' j b hk' => by
      have := hinv.act k' _ hk' rfl
      omega
    by_cases hd : e = .deliver k i
    · subst hd
      cases hs with
      | deliver h1 h2 h3 h4 =>
        rw [k1] at h2
        cases h2
        exact .received _ (by simp only [St.setPhase, St.setReader]; rw [List.getElem?_set_self (List.getElem?_eq_some_iff.1 h3).1]) rfl
    · have hb : s'.readers[k]? = some (.toSender (some i) a) ∧ s'.senders[i]? = some x := by
        clear hal h
        cases hs <;> simp only [St.setReader, St.setPhase, List.getElem?_append, List.getElem?_set] <;> grind
      exact .held x hb.1 hb.2 k3
  · by_cases hd : e = .finish i a
    · exact .done (by simp [hd])
    · have hb : s'.senders[i]? = some x := by
        clear hal h
        cases hs <;> simp only [St.setReader, St.setPhase, List.getElem?_append, List.getElem?_set] <;> grind
      exact .received x hb k3
  · exact .done (by simp [k1])

theorem Way.urgent {tr : List (Nat × Ev S)} {s : St S} {t k i : Nat} {id : String} {q : S.Req} {g : S.Frame} {a : Answer S}
    (h : Exec side (tr.map Prod.snd) s) (hc : s.crashed = false) (ha : AnswerTo id (S.action q) g a) (hway : Way tr s t k i id q g a)
    (hno : (t, .finish i a) ∉ tr) : ∃ e s', Urgent e = true ∧ Step side s e s' := by
  rcases hway with ⟨x, k1, k2, k3, k4, k5⟩ | ⟨x, k1, k2, k3⟩ | ⟨x, k2, k3⟩ | k1
  · exact ⟨_, _, rfl, .dispatch hc k1 (afterRead_answer h k2 k3 (by rw [k4, k5]; exact ha))⟩
  · exact ⟨_, _, rfl, .deliver hc k1 k2 k3⟩
  · exact ⟨_, _, rfl, .finish hc k2 k3⟩
  · exact absurd k1 hno

theorem answer_way {tr : List (Nat × Ev S)} {s : St S} (h : Prompt side tr s) {pre post : List (Nat × Ev S)} {t k i w : Nat} {id : String} {q : S.Req}
    {g f : S.Frame} {a : Answer S} (he : tr = pre ++ (t, .read k g) :: post) (hsend : Ev.send i id q ∈ pre.map Prod.snd)
    (hw : (w, .writeCall i (some f)) ∈ pre) (hlt : t < w + 60000) (hd : ∀ r k, (r, Ev.deliver k i) ∉ pre)
    (hn : ∀ x ∈ pre, x.2.returns i = false) (ha : AnswerTo id (S.action q) g a) :
    (t, .finish i a) ∈ tr ∨ (Way tr s t k i id q g a ∧ ∀ x ∈ tr.getLast?, x.1 = t) := by
  induction h generalizing post with
  | nil => simp at he
  | snoc h hs hal hp ih =>
    rename_i tr0 t' e s1 s2
    rcases List.eq_nil_or_concat post with rfl | ⟨post', y, rfl⟩
    · obtain ⟨h1, h2⟩ := List.append_inj' he rfl
      cases h2
      subst h1
      obtain ⟨x, hx, hph⟩ := still_waiting h.run.exec (List.mem_map.2 ⟨_, hw, rfl⟩)
        (fun k hk => by obtain ⟨⟨r, e⟩, h1, rfl⟩ := List.mem_map.1 hk; exact hd _ _ h1)
        (fun e he => by obtain ⟨y, h1, rfl⟩ := List.mem_map.1 he; exact hn _ h1)
      rcases Exec.sender_of_send h.run.exec i id q hsend with ⟨x', hx', h3, h4⟩ | ⟨hc, -⟩
      · rw [hx] at hx'
        cases hx'
        refine .inr ⟨?_, by simp⟩
        cases hs with
        | read k1 k2 => exact .got x (by simp [St.setReader, (List.getElem?_eq_some_iff.1 k2).1]) hx hph h3 h4
      · rw [step_not_crashed hs] at hc
        cases hc
    · rw [List.concat_eq_append, show pre ++ (t, .read k g) :: (post' ++ [y]) = (pre ++ (t, .read k g) :: post') ++ [y] by simp] at he
      obtain ⟨h1, h2⟩ := List.append_inj' he rfl
      rcases ih h1 with k1 | ⟨k1, k2⟩
      · exact .inl (by simp [k1])
      · by_cases hf : (t, .finish i a) ∈ tr0
        · exact .inl (by simp [hf])
        · have hu := k1.urgent h.run.exec (step_not_crashed hs) ha hf
          have hne : tr0 ≠ [] := by rw [h1]; simp
          obtain ⟨z, hz⟩ := Option.isSome_iff_exists.1 (List.getLast?_isSome.2 hne)
          have ht : t' = t := (hp.1 hu z hz).trans (k2 z hz)
          subst ht
          exact .inr ⟨way_step h ha (h1 ▸ List.mem_append_left _ hw) hlt k1 hs hal, by simp⟩

/-- **C92** If the machine is fast compared with the clock: an answer that is read less than 60 s after its request was written is what the `Send`
returns, at that very time.  (`hd`, `hn`: the `Send` has neither been handed an earlier answer nor returned; `hl`: the schedule goes beyond time `t`.) -/
theorem C92_answer {tr : List (Nat × Ev S)} {s : St S} (h : Prompt side tr s) {pre post : List (Nat × Ev S)} {t k i w : Nat} {id : String} {q : S.Req}
    {g f : S.Frame} {a : Answer S} (he : tr = pre ++ (t, .read k g) :: post) (hsend : Ev.send i id q ∈ pre.map Prod.snd)
    (hw : (w, .writeCall i (some f)) ∈ pre) (hlt : t < w + 60000) (hd : ∀ r k, (r, Ev.deliver k i) ∉ pre)
    (hn : ∀ x ∈ pre, x.2.returns i = false) (ha : AnswerTo id (S.action q) g a) (hl : ∃ x ∈ post, t < x.1) : (t, .finish i a) ∈ tr := by
  rcases answer_way h he hsend hw hlt hd hn ha with k1 | ⟨-, k2⟩
  · exact k1
  · exfalso
    obtain ⟨x, hx, hxt⟩ := hl
    have hmono : ∀ {tr : List (Nat × Ev S)} {s : St S}, Prompt side tr s → ∀ y ∈ tr.getLast?, ∀ x ∈ tr, x.1 ≤ y.1 := by
      intro tr s h
      cases h with
      | nil => simp
      | snoc h hs hal hp =>
        intro y hy x hx
        simp at hy
        subst hy
        rcases List.mem_append.1 hx with hx | hx
        · exact hal.1 x hx
        · rw [List.mem_singleton.1 hx]; exact Nat.le_refl _
    have hne : tr ≠ [] := by rw [he]; simp
    obtain ⟨z, hz⟩ := Option.isSome_iff_exists.1 (List.getLast?_isSome.2 hne)
    have h1 := hmono h z hz x (by rw [he]; simp [hx])
    have h2 := k2 z hz
    omega

/-- A timed-out `Send` stays timed out. -/
theorem timeout_state {tr : List (Ev S)} {s : St S} (h : Exec side tr s) {i : Nat} (ht : Ev.timeout i ∈ tr) :
    ∃ x, s.senders[i]? = some x ∧ x.phase = .done .timeout := by
  induction h with
  | nil => cases ht
  | snoc h1 hs ih =>
    rename_i tr0 e s1 s2
    rcases List.mem_append.1 ht with ht | ht
    · obtain ⟨x, hx, hp⟩ := ih ht
      refine ⟨x, ?_, hp⟩
      cases hs <;> simp only [St.setReader, St.setPhase, List.getElem?_append, List.getElem?_set] <;> grind
    · have hwe := List.mem_singleton.1 ht
      cases hs with
      | timeout k1 k2 k3 =>
        cases hwe
        exact ⟨_, List.getElem?_set_self (List.getElem?_eq_some_iff.1 k2).1, rfl⟩
      | _ => cases hwe

theorem Prompt.sorted {tr : List (Nat × Ev S)} {s : St S} (h : Prompt side tr s) : tr.Pairwise (fun x y => x.1 ≤ y.1) := by
  induction h with
  | nil => exact .nil
  | snoc h hs hal hp ih =>
    rw [List.pairwise_append]
    exact ⟨ih, List.pairwise_singleton _ _, fun x hx y hy => by rw [List.mem_singleton.1 hy]; exact hal.1 x hx⟩

/-- **C92** If the machine is fast compared with the clock: a `Send` that timed out was written exactly 60 s before, and nothing that answers it was read
in between. -/
theorem C92_timeout {tr : List (Nat × Ev S)} {s : St S} (h : Prompt side tr s) {t i : Nat} {id : String} {q : S.Req} (ht : (t, .timeout i) ∈ tr)
    (hsend : Ev.send i id q ∈ tr.map Prod.snd) :
    ∃ w f, (w, Ev.writeCall i (some f)) ∈ tr ∧ t = w + 60000 ∧
      ∀ pre post r k g a, tr = pre ++ (r, .read k g) :: post → (w, .writeCall i (some f)) ∈ pre → r < t → ¬ AnswerTo id (S.action q) g a := by
  obtain ⟨w, f, hw, hle⟩ := C92_notBefore h.run ht
  have hcount := (Exec.returns_once h.run.exec i).1
  have huniq : ∀ {r : Nat} {e : Ev S}, (r, e) ∈ tr → e.returns i = true → (r, e) = (t, .timeout i) := by
    intro r e hm he
    by_contra hne
    have hsub : [(r, e), (t, Ev.timeout i)].Subperm tr := by
      refine List.subperm_of_subset (by simpa using hne) ?_
      intro z hz
      simp only [List.mem_cons, List.not_mem_nil, or_false] at hz
      rcases hz with rfl | rfl
      · exact hm
      · exact ht
    have := hsub.countP_le (fun x => Ev.returns i x.2)
    rw [List.countP_map] at hcount
    have h2 : ([(r, e), (t, Ev.timeout i)] : List (Nat × Ev S)).countP (fun x => Ev.returns i x.2) = 2 := by
      have h4 : Ev.returns i (Ev.timeout i : Ev S) = true := by simp [Ev.returns]
      simp [List.countP_cons, he, h4]
    have h3 : List.countP (Ev.returns i ∘ Prod.snd) tr = tr.countP (fun x => Ev.returns i x.2) := rfl
    omega
  have hge : t ≤ w + 60000 := by
    rcases h.limit hw with ⟨r, e, k1, k2, k3⟩ | ⟨k, -⟩
    · cases huniq k1 k2
      exact k3
    · exact k _ ht
  refine ⟨w, f, hw, by omega, ?_⟩
  intro pre post r k g a he hwp hrt ha
  have hsorted := h.sorted
  have hpre : ∀ {z : Nat × Ev S}, z ∈ pre → z.1 ≤ r := fun {z} hz => by
    rw [he, List.pairwise_append] at hsorted
    exact hsorted.2.2 z hz (r, .read k g) (by simp)
  have htp : (t, Ev.timeout i) ∈ post := by
    rw [he] at ht
    simp only [List.mem_append, List.mem_cons, Prod.mk.injEq, reduceCtorEq, and_false, false_or] at ht
    rcases ht with ht | ht
    · have := hpre ht
      simp only at this
      omega
    · exact ht
  have hsendp : Ev.send i id q ∈ pre.map Prod.snd := by
    obtain ⟨s0, s1, hp0, -⟩ := h.split he
    obtain ⟨x, hx, -⟩ := written_state hp0.run.exec (List.mem_map.2 ⟨_, hwp, rfl⟩)
    have h1 := (Exec.sends hp0.run.exec i x hx).1
    have h2 : Ev.send i x.id x.req ∈ pre.map Prod.snd := h1.subset (by simp)
    have h3 : Ev.send i x.id x.req ∈ tr.map Prod.snd := by rw [he, List.map_append]; simp only [List.mem_append]; exact .inl h2
    obtain ⟨y, hy, -⟩ := written_state h.run.exec (List.mem_map.2 ⟨_, hw, rfl⟩)
    have hlt := (List.getElem?_eq_some_iff.1 hy).1
    rcases Exec.sender_of_send h.run.exec i _ _ h3 with ⟨y1, k1, k2, k3⟩ | ⟨-, k1⟩
    · rcases Exec.sender_of_send h.run.exec i _ _ hsend with ⟨y2, l1, l2, l3⟩ | ⟨-, l1⟩
      · rw [k1] at l1
        cases l1
        rw [← l2, ← l3, k2, k3]
        exact h2
      · omega
    · omega
  have hdone : ∀ k', Ev.deliver k' i ∉ tr.map Prod.snd := by
    intro k' hk'
    obtain ⟨x, hx, hp⟩ := (Exec.deliver_once h.run.exec).2.2.2 k' i hk'
    have := timeout_state h.run.exec (List.mem_map.2 ⟨_, ht, rfl⟩)
    obtain ⟨y, hy, hq⟩ := this
    rw [hx] at hy
    cases hy
    rw [hq] at hp
    rcases hp with ⟨b, hp⟩ | ⟨b, hp⟩ <;> cases hp
  have hfin := C92_answer h he hsendp hwp (by omega) (fun r' k' hk' => hdone k' (List.mem_map.2 ⟨_, he ▸ List.mem_append_left _ hk', rfl⟩))
    (fun z hz => by
      by_contra hc
      have := huniq (r := z.1) (e := z.2) (he ▸ List.mem_append_left _ hz) (by simpa using hc)
      have h1 := hpre hz
      rw [show z.1 = t from congrArg Prod.fst this] at h1
      omega) ha ⟨_, htp, hrt⟩
  cases huniq hfin (by simp [Ev.returns])

/-! ### The hypotheses can be met -/

theorem Prompt.now {tr : List (Nat × Ev S)} {s s' : St S} {t : Nat} {e : Ev S} (h : Prompt side tr s) (hs : Step side s e s')
    (hle : ∀ x ∈ tr, x.1 ≤ t) (hn : ∀ i, e ≠ .timeout i) (hq : ∀ x ∈ tr.getLast?, t = x.1) (ht : t ≤ 60000) : Prompt side (tr ++ [(t, e)]) s' :=
  .snoc h hs ⟨hle, fun i he => absurd he (hn i)⟩ ⟨fun _ => hq, fun i x w f _ _ _ => Nat.le_trans ht (Nat.le_add_left _ _)⟩

/-- An answer at any time before the limit, and a clock that goes on. -/
example (t₁ t₂ : Nat) (h₁ : t₁ < 60000) (h₂ : t₁ < t₂) : ∃ s, Prompt (S := toy) .cs
    [(0, .spawn 0), (0, .send 0 "x" (7 : Nat)), (0, .regSent 0), (0, .regChan 0), (0, .writeCall 0 (some (.call "x" "A" 7))),
     (t₁, .read 0 (.result "x" 9)), (t₁, .dispatch 0), (t₁, .deliver 0 0), (t₁, .finish 0 (.resp (9 : Nat))), (t₂, .result 0 .nil)] s := by
  have r1 := Prompt.now (S := toy) (side := .cs) (t := 0) .nil (Step.spawn rfl rfl) (by simp) (by simp) (by simp) (by omega)
  have r2 := Prompt.now (t := 0) r1 (Step.send (S := toy) (id := "x") (r := (7 : Nat)) (f := Msg.call "x" "A" (7 : Nat)) rfl
    (by simp [init]) rfl) (by simp) (by simp) (by simp) (by omega)
  have r3 := Prompt.now (t := 0) r2 (Step.regSent (S := toy) (i := 0) rfl rfl rfl) (by simp) (by simp) (by simp) (by omega)
  have r4 := Prompt.now (t := 0) r3 (Step.regChan (S := toy) (i := 0) rfl rfl rfl) (by simp) (by simp) (by simp) (by omega)
  have r5 := Prompt.now (t := 0) r4 (Step.writeOk (S := toy) (i := 0) (f := Msg.call "x" "A" (7 : Nat)) rfl rfl rfl rfl rfl) (by simp) (by simp) (by simp) (by omega)
  have r6 := Prompt.snoc (t := t₁) r5 (Step.read (S := toy) (k := 0) (f := Msg.result "x" (9 : Nat)) rfl rfl) ⟨by simp, by simp⟩
    ⟨?_, fun i x w f _ _ hw => by simp only [limit]; omega⟩
  · have r7 := Prompt.now (t := t₁) r6 (Step.dispatch (S := toy) (k := 0) (f := Msg.result "x" (9 : Nat))
      (p := .toSender (some 0) (.resp (9 : Nat))) rfl rfl rfl) (by simp) (by simp) (by simp) (by omega)
    have r8 := Prompt.now (t := t₁) r7 (Step.deliver (S := toy) (k := 0) (i := 0) (a := .resp (9 : Nat)) rfl rfl rfl rfl) (by simp) (by simp) (by simp) (by omega)
    have r9 := Prompt.now (t := t₁) r8 (Step.finish (S := toy) (i := 0) (a := .resp (9 : Nat)) rfl rfl rfl) (by simp) (by simp) (by simp) (by omega)
    refine ⟨_, Prompt.snoc (t := t₂) r9 (Step.result (S := toy) (k := 0) (e := .nil) rfl rfl rfl) ⟨by simp; omega, by simp⟩ ⟨?_, ?_⟩⟩
    · rintro ⟨e, s', he, hs⟩
      exfalso
      cases hs <;> simp_all [Urgent, init, St.setReader, St.setPhase, List.getElem?_cons] <;> grind
    · intro i x w f hx hp
      exfalso
      simp_all [init, St.setReader, St.setPhase, List.getElem?_cons] <;> grind
  · rintro ⟨e, s', he, hs⟩
    exfalso
    cases hs <;> simp_all [Urgent, init, St.setReader, St.setPhase, List.getElem?_cons] <;> grind

/-- No answer: the `Send` returns after 60 s. -/
example : ∃ s, Prompt (S := toy) .cs
    [(0, .spawn 0), (0, .send 0 "x" (7 : Nat)), (0, .regSent 0), (0, .regChan 0), (0, .writeCall 0 (some (.call "x" "A" 7))),
     (limit, .timeout 0)] s := by
  have r1 := Prompt.now (S := toy) (side := .cs) (t := 0) .nil (Step.spawn rfl rfl) (by simp) (by simp) (by simp) (by omega)
  have r2 := Prompt.now (t := 0) r1 (Step.send (S := toy) (id := "x") (r := (7 : Nat)) (f := Msg.call "x" "A" (7 : Nat)) rfl
    (by simp [init]) rfl) (by simp) (by simp) (by simp) (by omega)
  have r3 := Prompt.now (t := 0) r2 (Step.regSent (S := toy) (i := 0) rfl rfl rfl) (by simp) (by simp) (by simp) (by omega)
  have r4 := Prompt.now (t := 0) r3 (Step.regChan (S := toy) (i := 0) rfl rfl rfl) (by simp) (by simp) (by simp) (by omega)
  have r5 := Prompt.now (t := 0) r4 (Step.writeOk (S := toy) (i := 0) (f := Msg.call "x" "A" (7 : Nat)) rfl rfl rfl rfl rfl) (by simp) (by simp) (by simp) (by omega)
  refine ⟨_, Prompt.snoc (t := limit) r5 (Step.timeout (S := toy) (i := 0) rfl rfl rfl) ⟨by simp, fun i _ w f hw => ?_⟩ ⟨?_, fun i x w f _ _ hw => Nat.le_add_left _ _⟩⟩
  · simp at hw
    simp [hw.1]
  · rintro ⟨e, s', he, hs⟩
    exfalso
    cases hs <;> simp_all [Urgent, init, St.setReader, St.setPhase, List.getElem?_cons] <;> grind

end Verif.Conn
