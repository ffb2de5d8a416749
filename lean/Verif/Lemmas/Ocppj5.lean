import Verif.Lemmas.Ocppj4
set_option linter.unusedSimpArgs false
set_option linter.unnecessarySeqFocus false
/-!
# The texts of frames
-/
namespace Verif.Ocppj
open Json Codec Decode Encode Trip

theorem joinElems_value {js js' : List JVal} {ts : List Text} (h : List.Forall₂ Value js' ts) {out : Text}
    (hi : (js = [] ∧ out = ['[']) ∨ ∃ u, Elems js u ∧ out = '[' :: u) :
    ∃ t, joinElems (ts.map .ok) out = .ok t ∧ Value (.arr (js ++ js')) t := by
  induction h generalizing js out with
  | nil =>
    refine ⟨_, rfl, ?_⟩
    rcases hi with ⟨rfl, rfl⟩ | ⟨u, h1, rfl⟩
    · exact .arrNil Json.isWs_nil
    · simpa using Value.arr h1
  | @cons j tx js' ts hv _ ih =>
    simp only [List.map, joinElems, GoRes.bind]
    have hi' : (js ++ [j] = [] ∧ out ++ (if out = ['['] then tx else ',' :: tx) = ['[']) ∨
        ∃ u, Elems (js ++ [j]) u ∧ out ++ (if out = ['['] then tx else ',' :: tx) = '[' :: u := by
      right
      rcases hi with ⟨rfl, rfl⟩ | ⟨u, h1, rfl⟩
      · refine ⟨tx, ?_, by simp⟩
        simpa using Elems.one (w := []) (w' := []) Json.isWs_nil hv Json.isWs_nil
      · refine ⟨_, elems_snoc h1 hv, ?_⟩
        simp [elems_ne_nil h1]
    obtain ⟨t, h1, h2⟩ := ih hi'
    exact ⟨t, h1, by simpa using h2⟩

/-- A frame is written whenever its elements are, and denotes the array of them. -/
theorem frameText_value {js : List JVal} {ts : List Text} (h : List.Forall₂ Value js ts) :
    ∃ t, frameText (ts.map .ok) = .ok t ∧ Value (.arr js) t := by
  obtain ⟨t, h1, h2⟩ := joinElems_value h (js := []) (Or.inl ⟨rfl, rfl⟩)
  obtain ⟨t', h3, h4⟩ := compact_ok h2.jsonText
  refine ⟨t', ?_, by simpa using h4⟩
  unfold frameText
  rw [h1]
  simp only [GoRes.bind, h3]

/-- What the reader makes of a text with the value of this array. -/
theorem read_shape {vs : List JVal} {t : Text} (hv : JsonText (.arr vs) t) {m : Msg Payload} (hr : InRanges vs) (hs : Shape vs m) :
    unmarshalMessage (normalise t) = .ok (some m) :=
  ((unmarshalMessage_spec _).1 m).2 ⟨vs, (normalise_value hv).jsonText, hr, hs⟩

theorem isNum_fmt (F : FloatFmt) {q : ℚ} (h : IsF64 q) : IsNum (F.fmt q) q := F.roundtrip q h

theorem isF64_2 : IsF64 2 := by have := isF64_int (n := 2) (by norm_num); simpa using this
theorem isF64_3 : IsF64 3 := by have := isF64_int (n := 3) (by norm_num); simpa using this
theorem isF64_4 : IsF64 4 := by have := isF64_int (n := 4) (by norm_num); simpa using this

theorem inRange_num {l : NumLit} {q : ℚ} (h : IsNum l q) : InRange (.num l) := ⟨q, h⟩

theorem ofList_toList (s : String) : String.ofList s.toList = s := by simp

/-! ### Range -/

theorem roundEven_near (x : ℚ) : |(roundEven x : ℚ) - x| ≤ 1 / 2 := by
  have h0 := Int.floor_le x
  have h1 := Int.lt_floor_add_one x
  unfold roundEven
  simp only []
  split
  · rename_i h; rw [abs_le]; constructor <;> push_cast <;> linarith
  · split
    · rename_i h h'; rw [abs_le]; constructor <;> push_cast <;> linarith
    · rename_i h h'
      have e : x - (⌊x⌋ : ℚ) = 1 / 2 := le_antisymm (not_lt.1 h') (not_lt.1 h)
      split <;> rw [abs_le] <;> constructor <;> push_cast <;> linarith

theorem fl64_range {q : ℚ} (h : |q| ≤ 18446744073709551616) : ∃ r, fl64 q = some r := by
  have key : |roundF64 q| < (2 : ℚ) ^ (1024 : ℤ) := by
    have hu : (2 : ℚ) ^ ulpExp q ≤ |q| + 1 := by
      unfold ulpExp
      rcases le_total (Int.log 2 |q| - 52) (-1074) with hc | hc
      · rw [max_eq_right hc]
        have : (2 : ℚ) ^ (-1074 : ℤ) ≤ 1 := zpow_le_one_of_nonpos₀ (by norm_num) (by norm_num)
        have := abs_nonneg q
        linarith
      · rw [max_eq_left hc]
        rcases (abs_nonneg q).lt_or_eq with hq | hq
        swap
        · rw [← hq, Int.log_of_right_le_zero _ le_rfl]
          have : (2 : ℚ) ^ (0 - 52 : ℤ) ≤ 1 := zpow_le_one_of_nonpos₀ (by norm_num) (by norm_num)
          linarith
        have h1 : (2 : ℚ) ^ Int.log 2 |q| ≤ |q| := by
          have := Int.zpow_log_le_self (b := 2) (R := ℚ) (by norm_num) hq
          simpa using this
        have h2 : (2 : ℚ) ^ (Int.log 2 |q| - 52) ≤ (2 : ℚ) ^ Int.log 2 |q| :=
          zpow_le_zpow_right₀ (by norm_num) (by omega)
        linarith
    have hpos : (0 : ℚ) < 2 ^ ulpExp q := zpow_pos (by norm_num) _
    have hn := roundEven_near (q / 2 ^ ulpExp q)
    have h3 : |roundF64 q - q| ≤ 1 / 2 * (2 : ℚ) ^ ulpExp q := by
      have : roundF64 q - q = ((roundEven (q / (2 : ℚ) ^ ulpExp q) : ℚ) - q / 2 ^ ulpExp q) * 2 ^ ulpExp q := by
        unfold roundF64; field_simp
      rw [this, abs_mul, abs_of_pos hpos]
      exact mul_le_mul_of_nonneg_right hn hpos.le
    have h4 : |roundF64 q| ≤ |q| + (|q| + 1) := by
      have := abs_sub_abs_le_abs_sub (roundF64 q) q
      linarith
    have h5 : (2 : ℚ) ^ (66 : ℤ) < (2 : ℚ) ^ (1024 : ℤ) := zpow_lt_zpow_right₀ (by norm_num) (by norm_num)
    have h6 : (2 : ℚ) ^ (66 : ℤ) = 73786976294838206464 := by norm_num
    rw [h6] at h5
    generalize (2 : ℚ) ^ (1024 : ℤ) = B at h5 ⊢
    linarith
  exact ⟨_, if_pos key⟩

mutual
/-- Integers of at most 64 bits. -/
def bits64 : Ty → Bool
  | .int b => b == 32 || b == 64
  | .ptr t => bits64 t
  | .slice t => bits64 t
  | .struct _ ts => bits64s ts
  | _ => true
def bits64s : List Ty → Bool
  | [] => true
  | t :: ts => bits64 t && bits64s ts
end

set_option maxRecDepth 8000 in
theorem bits64_req : ∀ r : ReqType, bits64 r.ty = true := by intro r; cases r <;> decide
set_option maxRecDepth 8000 in
theorem bits64_resp : ∀ r : RespType, bits64 r.ty = true := by intro r; cases r <;> decide
theorem bits64_msg (m : MsgType) : bits64 m.ty = true := by
  cases m with
  | req r => exact bits64_req r
  | resp r => exact bits64_resp r

theorem inRanges_iff {vs : List JVal} : InRanges vs ↔ ∀ v ∈ vs, InRange v := by
  induction vs with
  | nil => simp [InRanges]
  | cons v vs ih => simp [InRanges, ih]

theorem inRangeMembers_iff {ms : List (Text × JVal)} : InRangeMembers ms ↔ ∀ m ∈ ms, InRange m.2 := by
  induction ms with
  | nil => simp [InRangeMembers]
  | cons m ms ih => obtain ⟨k, v⟩ := m; simp [InRangeMembers, ih]

theorem inRange_int {n : Int} {b : Nat} (hb : (b == 32 || b == 64) = true) (h : -(2 ^ (b - 1)) ≤ n ∧ n < 2 ^ (b - 1)) :
    InRange (.num (.ofInt n)) := by
  have : |(n : ℚ)| ≤ 18446744073709551616 := by
    have h' : |n| ≤ 18446744073709551616 := by
      rw [abs_le]
      simp only [Bool.or_eq_true, beq_iff_eq] at hb
      rcases hb with rfl | rfl <;> norm_num at h ⊢ <;> omega
    exact_mod_cast h'
  obtain ⟨r, hr⟩ := fl64_range this
  exact ⟨r, by unfold IsNum; rw [value_ofInt]; exact hr⟩

mutual
theorem wire_inRange (F : FloatFmt) (t : Ty) (v : Val) (j : JVal) (ht : bits64 t = true) (hv : HasTy t v)
    (h : wire F t v = .ok j) : InRange j := by
  match t, v with
  | .str, .str s => simp [wire] at h; subst h; exact True.intro
  | .int _, .int n => simp [wire] at h; subst h; exact inRange_int ht hv
  | .float, .float (.fin q) => simp [wire] at h; subst h; exact ⟨q, isNum_fmt F hv⟩
  | .bool, .bool b => simp [wire] at h; subst h; exact True.intro
  | .time, .time b => simp [wire] at h; subst h; exact True.intro
  | .ptr _, .nil => simp [wire] at h; subst h; exact True.intro
  | .ptr t, .ptr v =>
    simp only [wire] at h
    exact wire_inRange F t v j (by simpa [bits64] using ht) hv h
  | .slice _, .nil => simp [wire] at h; subst h; exact True.intro
  | .slice t, .slice vs =>
    simp only [wire] at h
    rw [GoRes.bind_eq_ok] at h
    obtain ⟨js, h1, h2⟩ := h
    cases h2
    simp only [HasTy] at hv
    simp only [InRange]
    rw [inRanges_iff]
    intro j hj
    have h3 : (GoRes.ok j) ∈ vs.map (wire F t) := by
      rw [allOk_mem h1]; exact List.mem_map_of_mem hj
    obtain ⟨v, hm, hw⟩ := List.mem_map.1 h3
    exact wire_inRange F t v j (by simpa [bits64] using ht) (hv v hm) hw
  | .struct info ts, .struct vs =>
    simp only [wire] at h
    rw [GoRes.bind_eq_ok] at h
    obtain ⟨ms, h1, h2⟩ := h
    cases h2
    simp only [bits64] at ht
    simp only [HasTy] at hv
    simp only [InRange]
    rw [inRangeMembers_iff]
    exact slotMembers_all (fun i j => wires_inRange F ts vs ht hv i j) h1
  termination_by structural t
theorem wires_inRange (F : FloatFmt) (ts : List Ty) (vs : List Val) (ht : bits64s ts = true) (hv : HasTys ts vs)
    (i : Nat) (j : JVal) (h : (wireAll F ts vs)[i]? = some (.ok j)) : InRange j := by
  match ts, vs, i with
  | [], _, _ => simp [wireAll] at h
  | t' :: ts, [], _ => simp [wireAll] at h
  | t' :: ts, v' :: vs, 0 =>
    simp only [bits64s, Bool.and_eq_true] at ht
    exact wire_inRange F t' v' j ht.1 hv.1 (by simpa [wireAll] using h)
  | t' :: ts, v' :: vs, i + 1 =>
    simp only [bits64s, Bool.and_eq_true] at ht
    exact wires_inRange F ts vs ht.2 hv.2 i j (by simpa [wireAll] using h)
  termination_by structural ts
end

/-- The payload of a message that can be encoded exists. -/
theorem payload_exists (F : FloatFmt) (m : MsgType) (v : Val) (hv : HasTy m.ty v) (ms : List (Text × JVal))
    (h : wire F m.ty v = .ok (.obj ms)) : ∃ p, toEntries ms [] = some p ∧ Holds (.obj ms) (.obj p) := by
  have hr := wire_inRange F m.ty v _ (bits64_msg m) hv h
  obtain ⟨p, hp⟩ := Option.isSome_iff_exists.1 ((toEntries_inRange ms []).2 hr)
  exact ⟨p, hp, (toAny_iff _ _).1 (by simp [toAny, hp])⟩

end Verif.Ocppj
