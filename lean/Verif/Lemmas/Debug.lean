import Verif.Spec.Debug
import Verif.Lemmas.Conn7
set_option linter.unusedSimpArgs false
namespace Verif.Debug
open Conn
variable {S : Sem} {side : Side} {tr : List (DEv S)} {s s' : DSt S}

@[simp] theorem conns_nil : conns ([] : List (DEv S)) = [] := rfl
@[simp] theorem conns_conn (e : Ev S) : conns (tr ++ [.conn e]) = conns tr ++ [e] := by simp [conns]
@[simp] theorem conns_line (w : Who) (l : Line S) : conns (tr ++ [.line w l]) = conns tr := by simp [conns]
theorem conns_append (t u : List (DEv S)) : conns (t ++ u) = conns t ++ conns u := by simp [conns]
@[simp] theorem printed_nil : printed ([] : List (DEv S)) = [] := rfl
@[simp] theorem printed_conn (e : Ev S) : printed (tr ++ [.conn e]) = printed tr := by simp [printed]
@[simp] theorem printed_line (w : Who) (l : Line S) : printed (tr ++ [.line w l]) = printed tr ++ [l] := by simp [printed]
theorem printed_append (t u : List (DEv S)) : printed (t ++ u) = printed t ++ printed u := by simp [printed]

theorem about_length (f : S.Frame) : (about f).length = lines f := by
  unfold about lines; cases S.read f <;> rfl

/-- The connection inside is one. -/
theorem DExec.conn (h : DExec side tr s) : Exec side (conns tr) s.conn := by
  induction h with
  | nil => exact .nil
  | snoc h hs ih =>
    cases hs with
    | other _ _ _ h => rw [conns_conn]; exact .snoc ih h
    | unencoded _ _ h => rw [conns_conn]; exact .snoc ih h
    | wrote _ _ _ _ h => rw [conns_conn]; exact .snoc ih h
    | failed _ _ _ _ h => rw [conns_conn]; exact .snoc ih h
    | _ => rw [conns_line]; exact ih

/-- Somebody inside `sendMessage` before the write is still about to write. -/
theorem DExec.lock (h : DExec side tr s) : ∀ w f, s.lock = some (w, f, false) → About s.conn w f := by
  induction h with
  | nil => simp [dinit]
  | @snoc tr e s s' h hs ih =>
    intro w f hl
    cases hs with
    | raw | parsed => exact ih w f hl
    | sending _ _ ha => simp only [Option.some.injEq, Prod.mk.injEq, and_true] at hl; obtain ⟨rfl, rfl⟩ := hl; exact ha
    | unencoded h0 => simp [h0] at hl
    | wrote => simp at hl
    | failed => simp at hl
    | sent => simp at hl
    | @other e c hn hw _ hst =>
      have ha := ih w f hl
      have hw : w ∉ who e := fun hm => hw w hm f false hl
      have hlt : ∀ (k : Nat) x, s.conn.readers[k]? = some x → k < s.conn.readers.length := fun _ _ h => (List.getElem?_eq_some_iff.1 h).1
      have hlt' : ∀ (k : Nat) x, s.conn.senders[k]? = some x → k < s.conn.senders.length := fun _ _ h => (List.getElem?_eq_some_iff.1 h).1
      cases ha with
      | @refusal k id c hr =>
        apply About.refusal
        have := hlt _ _ hr
        cases hst <;> simp_all [who, sends, St.setReader, St.setPhase, List.getElem?_append] <;> grind
      | @reply id resp err f hr he =>
        refine About.reply ?_ he
        cases hst <;> simp_all [who, sends, St.setReader, St.setPhase]
      | @call i x f hr hp hf =>
        have := hlt' _ _ hr
        refine About.call (x := x) ?_ hp hf
        cases hst <;> simp_all [who, sends, St.setReader, St.setPhase, List.getElem?_append] <;> grind

/-- A reader after its write has its result. -/
theorem DExec.lockDone (h : DExec side tr s) : ∀ (k : Nat) (f : S.Frame), s.lock = some (.reader k, f, true) →
    s.conn.readers[k]? = some (Reader.offer .nil) := by
  induction h with
  | nil => simp [dinit]
  | @snoc tr e s s' h hs ih =>
    intro k f hl
    cases hs with
    | raw | parsed => exact ih k f hl
    | sending => simp at hl
    | unencoded h0 => simp [h0] at hl
    | failed => simp at hl
    | sent => simp at hl
    | wrote h0 h1 h2 h3 hst =>
      simp only [Option.some.injEq, Prod.mk.injEq, and_true] at hl
      obtain ⟨rfl, rfl⟩ := hl
      cases hst <;> simp only [sends, Bool.false_eq_true] at h1 <;> simp only [who, List.cons.injEq, reduceCtorEq, and_true, Who.reader.injEq] at h2
      case refuse k' id c ok hc hr ho =>
        subst h2
        have hlt : k' < s.conn.readers.length := (List.getElem?_eq_some_iff.1 hr).1
        cases ok
        · simp [Ev.wrote] at h3
        · simp [St.setReader, hlt]
      all_goals simp at h2
    | @other e c hn hw _ hst =>
      have ha := ih k f hl
      have hw : .reader k ∉ who e := fun hm => hw _ hm f true hl
      have hlt : ∀ (k : Nat) x, s.conn.readers[k]? = some x → k < s.conn.readers.length := fun _ _ h => (List.getElem?_eq_some_iff.1 h).1
      have := hlt _ _ ha
      cases hst <;> simp_all [who, sends, St.setReader, St.setPhase, List.getElem?_append] <;> grind

/-! ### Received -/

/-- What the lines about received texts lack. -/
structure Rest (tr : List (DEv S)) (s : DSt S) (rest : List (Line S)) : Prop where
  all : inLines (printed tr) ++ rest = (framesRead (conns tr)).flatMap about
  cur : ∀ (k : Nat) (f : S.Frame), s.conn.readers[k]? = some (Reader.got f) → rest = (about f).drop (s.told k)
  idle : (∀ (k : Nat) (f : S.Frame), s.conn.readers[k]? ≠ some (Reader.got f)) → rest = []
  fresh : ∀ (k : Nat), s.conn.readers[k]? = some Reader.reading ∨ s.conn.readers[k]? = none → s.told k = 0

theorem framesRead_append (t u : List (Ev S)) : framesRead (t ++ u) = framesRead t ++ framesRead u := by simp [framesRead]

/-- A step that is neither a read nor the dispatch of a text leaves the readers with texts alone. -/
theorem step_got {c c' : St S} {e : Ev S} (h : Step side c e c') (h1 : ∀ k f, e ≠ .read k f) (h2 : ∀ k, e ≠ .dispatch k) (k : Nat) (f : S.Frame) :
    c'.readers[k]? = some (.got f) ↔ c.readers[k]? = some (.got f) := by
  have hlt : ∀ (k : Nat) x, c.readers[k]? = some x → k < c.readers.length := fun _ _ h => (List.getElem?_eq_some_iff.1 h).1
  cases h <;> simp_all [St.setReader, St.setPhase, List.getElem?_append, List.getElem?_set] <;> grind

theorem step_fresh {c c' : St S} {e : Ev S} (h : Step side c e c') (k : Nat) (hk : c'.readers[k]? = some .reading ∨ c'.readers[k]? = none) :
    c.readers[k]? = some .reading ∨ c.readers[k]? = none := by
  have hlt : ∀ (k : Nat) x, c.readers[k]? = some x → k < c.readers.length := fun _ _ h => (List.getElem?_eq_some_iff.1 h).1
  cases h with
  | @dispatch k' f p hc hr ha =>
    simp only [St.setReader, List.getElem?_set] at hk
    split at hk
    · rename_i hkk
      subst hkk
      exfalso
      have := hlt _ _ hr
      simp only [this, if_true, Option.some.injEq, reduceCtorEq, or_false] at hk
      subst hk
      unfold afterRead at ha
      split at ha <;> first | simp at ha | (split at ha <;> first | simp at ha | (split at ha <;> simp at ha))
    · exact hk
  | _ =>
    simp_all [St.setReader, St.setPhase, List.getElem?_append, List.getElem?_set] <;> grind

theorem inLines_append (t u : List (Line S)) : inLines (t ++ u) = inLines t ++ inLines u := by simp [inLines]
theorem outLines_append (t u : List (Line S)) : outLines (t ++ u) = outLines t ++ outLines u := by simp [outLines]

theorem about_drop {f : S.Frame} : (about f).drop (lines f) = [] := by rw [← about_length]; exact List.drop_length

theorem DExec.rest (h : DExec side tr s) : ∃ rest, Rest tr s rest := by
  induction h with
  | nil => exact ⟨[], by simp [inLines, framesRead], by simp [dinit, init], by simp, by simp [dinit]⟩
  | @snoc tr e s s' h hs ih =>
    obtain ⟨rest, hall, hcur, hidle, hfresh⟩ := ih
    have hinv := h.conn.inv
    -- steps of the connection that neither read nor dispatch
    have quiet : ∀ (e : Ev S) (c : St S), Step side s.conn e c → (∀ k f, e ≠ .read k f) → (∀ k, e ≠ .dispatch k) →
        (s'.conn = c ∧ s'.told = s.told) → Rest (tr ++ [.conn e]) s' rest := by
      intro e c hst h1 h2 hc
      refine ⟨?_, ?_, ?_, ?_⟩
      · rw [printed_conn, conns_conn, framesRead_append, List.flatMap_append, hall]
        have : framesRead [e] = [] := by cases e <;> simp [framesRead] at * 
        simp [this]
      · intro k f hg
        rw [hc.1, step_got hst h1 h2] at hg
        rw [hc.2]; exact hcur k f hg
      · intro hn
        refine hidle fun k f hg => hn k f ?_
        rw [hc.1, step_got hst h1 h2]; exact hg
      · intro k hk
        rw [hc.1] at hk
        rw [hc.2]; exact hfresh k (step_fresh hst k hk)
    have same : ∀ (w : Who) (l : Line S), l.isIn = false → s'.conn = s.conn → s'.told = s.told → Rest (tr ++ [.line w l]) s' rest := by
      intro w l hl hc ht
      refine ⟨?_, ?_, ?_, ?_⟩
      · rw [printed_line, conns_line, inLines_append, ← hall]
        simp [inLines, hl]
      · rw [hc, ht]; exact hcur
      · rw [hc]; exact hidle
      · rw [hc, ht]; exact hfresh
    have tell : ∀ (k : Nat) (f : S.Frame) (l : Line S), s.conn.readers[k]? = some (.got f) → s' = s.tell k → l.isIn = true →
        (about f).drop (s.told k) = l :: (about f).drop (s.told k + 1) → Rest (tr ++ [.line (.reader k) l]) s' ((about f).drop (s.told k + 1)) := by
      intro k f l hk hs' hl hd
      subst hs'
      have hr := hcur k f hk
      refine ⟨?_, ?_, ?_, ?_⟩
      · rw [printed_line, conns_line, inLines_append, ← hall, hr, hd]
        simp [inLines, hl]
      · intro j g hj
        have hj' : s.conn.readers[j]? = some (.got g) := hj
        have h1 := (hinv.act j _ hj' rfl).1
        have h2 := (hinv.act k _ hk rfl).1
        obtain rfl : j = k := by omega
        rw [hk] at hj'
        cases hj'
        simp [DSt.tell]
      · intro hn; exact absurd hk (hn k f)
      · intro j hj
        have hj' : s.conn.readers[j]? = some Reader.reading ∨ s.conn.readers[j]? = none := hj
        have hjk : j ≠ k := by rintro rfl; rw [hk] at hj'; simp at hj'
        simp only [DSt.tell, hjk, if_false]
        exact hfresh j hj'
    cases hs with
    | @raw k f hc hk ht =>
      refine ⟨_, tell k f _ hk rfl rfl ?_⟩
      rw [ht]
      unfold about
      cases S.read f <;> rfl
    | @parsed k f m hc hk ht hm =>
      refine ⟨_, tell k f _ hk rfl rfl ?_⟩
      rw [ht]
      unfold about
      rw [hm]
      rfl
    | sending => exact ⟨rest, same _ _ rfl rfl rfl⟩
    | sent => exact ⟨rest, same _ _ rfl rfl rfl⟩
    | unencoded _ _ hst => exact ⟨rest, quiet _ _ hst (by simp) (by simp) ⟨rfl, rfl⟩⟩
    | wrote _ hs1 _ _ hst =>
      exact ⟨rest, quiet _ _ hst (by rintro k f rfl; simp [sends] at hs1) (by rintro k rfl; simp [sends] at hs1) ⟨rfl, rfl⟩⟩
    | failed _ hs1 _ _ hst =>
      exact ⟨rest, quiet _ _ hst (by rintro k f rfl; simp [sends] at hs1) (by rintro k rfl; simp [sends] at hs1) ⟨rfl, rfl⟩⟩
    | @other e c hs1 hw hd hst =>
      by_cases h1 : ∃ k f, e = .read k f
      · obtain ⟨k, f, rfl⟩ := h1
        cases hst with
        | read hc hk =>
        have hlt : k < s.conn.readers.length := (List.getElem?_eq_some_iff.1 hk).1
        have hkk := (hinv.act k _ hk rfl).1
        have hno : ∀ (j : Nat) (g : S.Frame), s.conn.readers[j]? ≠ some (Reader.got g) := by
          intro j g hj
          have := (hinv.act j _ hj rfl).1
          obtain rfl : j = k := by omega
          rw [hk] at hj; cases hj
        have h0 := hidle hno
        subst h0
        refine ⟨about f, ?_, ?_, ?_, ?_⟩
        · rw [printed_conn, conns_conn, framesRead_append, List.flatMap_append, ← hall]
          simp [framesRead]
        · intro j g hj
          simp only [St.setReader, List.getElem?_set] at hj
          split at hj
          · rename_i hjk
            subst hjk
            simp only [hlt, if_true, Option.some.injEq, Reader.got.injEq] at hj
            subst hj
            rw [hfresh k (.inl hk)]
            rfl
          · exact absurd hj (hno j g)
        · intro hn
          exact absurd (by simp [St.setReader, hlt]) (hn k f)
        · intro j hj
          exact hfresh j (step_fresh (side := side) (Step.read hc hk) j hj)
      · by_cases h2 : ∃ k, e = .dispatch k
        · obtain ⟨k, rfl⟩ := h2
          obtain ⟨f, hk⟩ : ∃ f, s.conn.readers[k]? = some (.got f) := by cases hst <;> exact ⟨_, by assumption⟩
          have hfull := hd k f rfl hk
          have hr := hcur k f hk
          rw [hfull, about_drop] at hr
          subst hr
          refine ⟨[], ?_, ?_, fun _ => rfl, ?_⟩
          · rw [printed_conn, conns_conn, framesRead_append, List.flatMap_append, hall]
            simp [framesRead]
          · intro j g hj
            have hg : s.conn.readers[j]? = some (Reader.got g) := by
              have hlt : k < s.conn.readers.length := (List.getElem?_eq_some_iff.1 hk).1
              cases hst with
              | dispatchPanic => exact hj
              | @dispatch _ f' p hc hr ha =>
                simp only [St.setReader, List.getElem?_set] at hj
                split at hj
                · exfalso
                  simp only [hlt, if_true, Option.some.injEq] at hj
                  subst hj
                  unfold afterRead at ha
                  split at ha <;> first | simp at ha | (split at ha <;> first | simp at ha | (split at ha <;> simp at ha))
                · exact hj
            have e1 := (hinv.act j _ hg rfl).1
            have e2 := (hinv.act k _ hk rfl).1
            obtain rfl : j = k := by omega
            rw [hk] at hg
            cases hg
            show [] = (about f).drop (s.told j)
            rw [hfull, about_drop]
          · intro j hj
            exact hfresh j (step_fresh hst j hj)
        · exact ⟨rest, quiet _ _ hst (fun k f hh => h1 ⟨k, f, hh⟩) (fun k hh => h2 ⟨k, hh⟩) ⟨rfl, rfl⟩⟩

/-! ### Sent -/

theorem Attempt.mono {tr tr' : List (Ev S)} (hs : ∀ e ∈ tr, e ∈ tr') {e : Ev S} {x : S.Frame × Bool} (h : Attempt tr e x) : Attempt tr' e x := by
  cases h with
  | refusal => exact .refusal
  | reply h1 h2 => exact .reply h1 h2
  | call h1 h2 h3 => exact .call (hs _ h1) h2 h3

open Classical in
/-- The attempts to write, in order. -/
noncomputable def tries (tr : List (Ev S)) : List (Ev S) := tr.filter fun e => decide (Tries e)

theorem tries_append (t u : List (Ev S)) : tries (t ++ u) = tries t ++ tries u := by simp [tries]
theorem tries_yes {e : Ev S} (h : Tries e) : tries [e] = [e] := by simp [tries, h]
theorem tries_no {e : Ev S} (h : ¬ Tries e) : tries [e] = [] := by simp [tries, h]

theorem not_tries {e : Ev S} (h : sends e = false) : ¬ Tries e := by
  rintro (⟨k, id, c, ok, rfl⟩ | ⟨i, w, rfl⟩ | ⟨id, resp, err, w, rfl, f, -⟩) <;> simp [sends] at h

/-- A step of somebody inside `sendMessage` is an attempt with the text announced. -/
theorem attempt_of {t : List (Ev S)} {c c' : St S} {w : Who} {f : S.Frame} {e : Ev S} (hex : Exec side t c) (ha : About c w f) (h1 : sends e = true)
    (h2 : who e = [w]) (hst : Step side c e c') (hw : e.wrote = some f ∨ e.wrote = none) : Tries e ∧ Attempt t e (f, e.wrote.isSome) := by
  cases e <;> simp only [sends, Bool.false_eq_true] at h1 <;> simp only [who, List.cons.injEq, and_true] at h2 <;> subst h2
  case refuse k id cd ok =>
    cases ha with
    | refusal hr =>
    cases hst with
    | refuse _ _ hr' _ =>
    rw [hr] at hr'
    cases hr'
    refine ⟨.inl ⟨_, _, _, _, rfl⟩, ?_⟩
    have : (Ev.wrote (Ev.refuse (S := S) k id cd ok)).isSome = ok := by cases ok <;> rfl
    rw [this]
    exact .refusal
  case answer id resp err w =>
    cases ha with
    | @reply id' resp' err' _ hl he =>
    have hl' : c.loop = .answering id resp err := by cases hst <;> assumption
    rw [hl] at hl'
    cases hl'
    refine ⟨.inr (.inr ⟨_, _, _, _, rfl, _, he⟩), .reply he ?_⟩
    rintro g rfl
    rcases hw with hw | hw <;> simp [Ev.wrote] at hw
    exact hw
  case writeCall i w =>
    cases ha with
    | call hx hp hf =>
    refine ⟨.inr (.inl ⟨_, _, rfl⟩), .call (by simpa using (Exec.sends hex i _ hx).1) (Exec.frames hex i _ f hx hf) ?_⟩
    rintro g rfl
    rcases hw with hw | hw <;> simp [Ev.wrote] at hw
    exact hw

/-- How the lines about what is sent stand to the attempts. -/
def Agrees (ls : List (Line S)) (l : List (S.Frame × Bool)) : Option (Who × S.Frame × Bool) → Prop
  | none => ls = l.flatMap block
  | some (_, f, false) => ls = l.flatMap block ++ [.sending f]
  | some (_, f, true) => ∃ l', l = l' ++ [(f, true)] ∧ ls = l'.flatMap block ++ [.sending f]

theorem DExec.outs (h : DExec side tr s) :
    ∃ l, List.Forall₂ (Attempt (conns tr)) (tries (conns tr)) l ∧ Agrees (outLines (printed tr)) l s.lock := by
  induction h with
  | nil => exact ⟨[], by simp [tries], by simp [Agrees, outLines, dinit]⟩
  | @snoc tr e s s' h hs ih =>
    obtain ⟨l, hl, ha⟩ := ih
    have mono : ∀ e : Ev S, List.Forall₂ (Attempt (conns (tr ++ [.conn e]))) (tries (conns tr)) l := fun e =>
      hl.imp fun _ _ h => h.mono fun x hx => by rw [conns_conn]; exact List.mem_append_left _ hx
    have add : ∀ (e : Ev S) x, Tries e → Attempt (conns tr) e x →
        List.Forall₂ (Attempt (conns (tr ++ [.conn e]))) (tries (conns (tr ++ [.conn e]))) (l ++ [x]) := by
      intro e x h1 h2
      have h3 := mono e
      rw [conns_conn] at h3 ⊢
      rw [tries_append, tries_yes h1]
      exact List.rel_append h3 (.cons (h2.mono fun x hx => List.mem_append_left _ hx) .nil)
    cases hs with
    | raw => exact ⟨l, by rw [conns_line]; exact hl, by rw [printed_line, outLines_append]; simpa [outLines, Line.isIn, DSt.tell] using ha⟩
    | parsed => exact ⟨l, by rw [conns_line]; exact hl, by rw [printed_line, outLines_append]; simpa [outLines, Line.isIn, DSt.tell] using ha⟩
    | other h1 _ _ hst =>
      refine ⟨l, ?_, by rw [printed_conn]; exact ha⟩
      have h3 := mono ‹_›
      rw [conns_conn] at h3 ⊢
      rw [tries_append, tries_no (not_tries h1), List.append_nil]
      exact h3
    | @unencoded id resp err c h0 h1 hst =>
      refine ⟨l, ?_, by rw [printed_conn]; exact ha⟩
      have h3 := mono (.answer id resp err none)
      rw [conns_conn] at h3 ⊢
      rw [tries_append, tries_no, List.append_nil]
      · exact h3
      · rintro (⟨k, id, c, ok, hh⟩ | ⟨i, w, hh⟩ | ⟨id, resp, err, w, hh, f, he⟩) <;> cases hh
        exact h1 f he
    | sending hc h0 hab =>
      refine ⟨l, by rw [conns_line]; exact hl, ?_⟩
      rw [h0] at ha
      rw [printed_line, outLines_append, show outLines (printed tr) = _ from ha]
      simp [Agrees, outLines, Line.isIn]
    | sent hc h0 =>
      refine ⟨l, by rw [conns_line]; exact hl, ?_⟩
      rw [h0] at ha
      obtain ⟨l', rfl, ha⟩ := ha
      rw [printed_line, outLines_append, ha]
      simp [Agrees, outLines, Line.isIn, block]
    | wrote h0 h1 h2 hw hst =>
      obtain ⟨ht, hat⟩ := attempt_of h.conn (h.lock _ _ h0) h1 h2 hst (.inl hw)
      rw [h0] at ha
      refine ⟨_, add _ _ ht hat, l, by rw [hw]; rfl, ?_⟩
      rw [printed_conn]
      exact ha
    | failed h0 h1 h2 hw hst =>
      obtain ⟨ht, hat⟩ := attempt_of h.conn (h.lock _ _ h0) h1 h2 hst (.inr hw)
      rw [h0] at ha
      refine ⟨_, add _ _ ht hat, ?_⟩
      rw [printed_conn, hw]
      show outLines (printed tr) = _
      rw [show outLines (printed tr) = _ from ha]
      simp [block]

/-! ### Every schedule of the connection has its lines -/

/-- Only a `Send` whose request could not be encoded has no text. -/
theorem frame_none {t : List (Ev S)} {c : St S} (h : Exec side t c) :
    ∀ (i : Nat) (x : Sender S), c.senders[i]? = some x → x.frame = none → x.phase = .done .encodeErr := by
  induction h with
  | nil => simp [init]
  | @snoc t e c c' h hst ih =>
    intro i y hy hf
    cases hst
    case send id r f' hc hid he =>
      simp only [getElem?_append_one] at hy
      rcases hy with hy | ⟨rfl, rfl⟩
      · exact ih i y hy hf
      · cases hf
    case sendErr id r f' hc hid he =>
      simp only [getElem?_append_one] at hy
      rcases hy with hy | ⟨rfl, rfl⟩
      · exact ih i y hy hf
      · rfl
    all_goals first
      | exact ih i y hy hf
      | (simp only [St.setPhase, St.setReader, List.getElem?_set] at hy
         grind)

/-- A call of `sendMessage` has a text, or is a reply that cannot be encoded. -/
theorem sends_about {t : List (Ev S)} {c c' : St S} {e : Ev S} (hex : Exec side t c) (hs : sends e = true) (hst : Step side c e c') :
    (∃ id resp err, e = .answer id resp err none ∧ ∀ f, S.encReply id resp err ≠ .ok f) ∨
    ∃ w f, About c w f ∧ who e = [w] ∧ (e.wrote = some f ∧ c'.crashed = false ∨ e.wrote = none) := by
  cases hst <;> simp only [sends, Bool.false_eq_true] at hs
  case refuse k id cd ok hc hr ho =>
    refine .inr ⟨_, _, .refusal hr, rfl, ?_⟩
    cases ok
    · exact .inr rfl
    · exact .inl ⟨rfl, hc⟩
  case answerOk id resp err f hc hl he hcl => exact .inr ⟨_, f, .reply hl he, rfl, .inl ⟨rfl, hc⟩⟩
  case answerFail id resp err hc hl he =>
    rcases h : S.encReply id resp err with f | m | m
    · exact .inr ⟨_, f, .reply hl h, rfl, .inr rfl⟩
    · exact .inl ⟨_, _, _, rfl, by simp [h]⟩
    · exact .inl ⟨_, _, _, rfl, by simp [h]⟩
  case answerPanicCs id resp err hc _ hl he =>
    refine .inl ⟨_, _, _, rfl, fun f hf => ?_⟩
    rw [hf] at he; cases he
  case answerPanicCp id resp err hc _ hl he =>
    refine .inl ⟨_, _, _, rfl, fun f hf => ?_⟩
    rw [hf] at he; cases he
  case writeOk i x f hc hx hp hf hcl => exact .inr ⟨_, f, .call hx hp hf, rfl, .inl ⟨rfl, hc⟩⟩
  case writeFail i x hc hx hp =>
    rcases hf : x.frame with _ | f
    · exfalso
      have := frame_none hex i x hx hf
      rw [hp] at this; cases this
    · exact .inr ⟨_, f, .call hx hp hf, rfl, .inr rfl⟩

theorem DExec.exists {t : List (Ev S)} {c : St S} (h : Exec side t c) : ∃ tr, ∃ s : DSt S, DExec side tr s ∧ conns tr = t ∧ s.conn = c ∧ s.lock = none ∧
    ∀ (k : Nat) (f : S.Frame), s.conn.readers[k]? = some (Reader.got f) → s.told k = lines f := by
  induction h with
  | nil => exact ⟨[], _, .nil, rfl, rfl, rfl, by simp [dinit, init]⟩
  | @snoc t e c c' h hst ih =>
    obtain ⟨tr, s, hd, hc, rfl, hl, hg⟩ := ih
    have nolock : ∀ w ∈ who e, ∀ f b, s.lock ≠ some (w, f, b) := by simp [hl]
    by_cases hs : sends e = true
    · have hnr : ∀ k f, e ≠ .read k f := by rintro k f rfl; simp [sends] at hs
      have hnd : ∀ k, e ≠ .dispatch k := by rintro k rfl; simp [sends] at hs
      have hg' : ∀ (k : Nat) (f : S.Frame), c'.readers[k]? = some (Reader.got f) → s.told k = lines f := fun k f hk => hg k f ((step_got hst hnr hnd k f).1 hk)
      rcases sends_about h hs hst with ⟨id, resp, err, rfl, hne⟩ | ⟨w, f, hab, hw, hwr⟩
      · exact ⟨_, _, .snoc hd (.unencoded hl hne hst), by rw [conns_conn, hc], rfl, hl, hg'⟩
      · have hcr := step_not_crashed hst
        have h1 : DExec side (tr ++ [.line w (.sending f)]) _ := .snoc hd (.sending hcr hl hab)
        rcases hwr with ⟨hwr, hcr'⟩ | hwr
        · exact ⟨_, _, .snoc (.snoc h1 (.wrote rfl hs hw hwr hst)) (.sent hcr' rfl), by rw [conns_line, conns_conn, conns_line, hc], rfl, rfl, hg'⟩
        · exact ⟨_, _, .snoc h1 (.failed rfl hs hw hwr hst), by rw [conns_conn, conns_line, hc], rfl, rfl, hg'⟩
    · have hs : sends e = false := by simpa using hs
      have h1 : DExec side (tr ++ [.conn e]) { s with conn := c' } := .snoc hd (.other hs nolock (fun k f _ hk => hg k f hk) hst)
      by_cases hr : ∃ k f, e = .read k f
      · obtain ⟨k, f, rfl⟩ := hr
        have hcr := step_not_crashed hst
        cases hst with
        | read _ hk =>
        have hlt : k < s.conn.readers.length := (List.getElem?_eq_some_iff.1 hk).1
        have hk' : (s.conn.setReader k (.got f)).readers[k]? = some (Reader.got f) := by simp [St.setReader, hlt]
        obtain ⟨_, hR⟩ := hd.rest
        have h0 := hR.fresh k (.inl hk)
        have h2 := DExec.snoc h1 (DStep.raw (k := k) (f := f) hcr hk' h0)
        have only : ∀ (j : Nat) (g : S.Frame), (s.conn.setReader k (.got f)).readers[j]? = some (Reader.got g) → j = k ∧ g = f := by
          intro j g hj
          have e1 := (h1.conn.inv.act j _ hj rfl).1
          have e2 := (h1.conn.inv.act k _ hk' rfl).1
          obtain rfl : j = k := by omega
          have hj : (s.conn.setReader j (.got f)).readers[j]? = some (Reader.got g) := hj
          rw [hk'] at hj
          cases hj
          exact ⟨rfl, rfl⟩
        rcases hm : S.read f with m | m | m
        · have h3 := DExec.snoc h2 (DStep.parsed (k := k) (f := f) (m := m) hcr hk' (by simp [DSt.tell, h0]) hm)
          refine ⟨_, _, h3, by simp only [conns_line, conns_conn, hc], rfl, hl, ?_⟩
          intro j g hj
          obtain ⟨rfl, rfl⟩ := only j g hj
          simp [DSt.tell, h0, lines, hm]
        all_goals
          refine ⟨_, _, h2, by simp only [conns_line, conns_conn, hc], rfl, hl, ?_⟩
          intro j g hj
          obtain ⟨rfl, rfl⟩ := only j g hj
          simp [DSt.tell, h0, lines, hm]
      · refine ⟨_, _, h1, by rw [conns_conn, hc], rfl, hl, ?_⟩
        intro k f hk
        have hk : c'.readers[k]? = some (Reader.got f) := hk
        by_cases hd' : ∃ j, e = .dispatch j
        · obtain ⟨j, rfl⟩ := hd'
          refine hg k f ?_
          cases hst with
          | dispatchPanic => exact hk
          | @dispatch _ f' p hc hr ha =>
            have hlt : j < s.conn.readers.length := (List.getElem?_eq_some_iff.1 hr).1
            simp only [St.setReader, List.getElem?_set] at hk
            split at hk
            · exfalso
              simp only [hlt, if_true, Option.some.injEq] at hk
              subst hk
              unfold afterRead at ha
              split at ha <;> first | simp at ha | (split at ha <;> first | simp at ha | (split at ha <;> simp at ha))
            · exact hk
        · exact hg k f ((step_got hst (fun k f hh => hr ⟨k, f, hh⟩) (fun k hh => hd' ⟨k, hh⟩) k f).1 hk)
