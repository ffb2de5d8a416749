import Verif.Lemmas.JRead
import Verif.Props.Conform
/-! # Reading payloads that are valid against their schema files: structure -/
set_option linter.unusedSimpArgs false
namespace Verif.Ocppj
open Json Codec Decode Encode Trip

mutual
/-- A schema without enumerations and lengths. -/
def plain : JSchema → Schema
  | .str _ _ => .str
  | .int => .int
  | .num => .num
  | .bool => .bool
  | .arr it => .arr (plain it)
  | .obj props required closed => .obj (plains props) required closed
/-- The same for properties. -/
def plains : List (Text × JSchema) → List (Text × Schema)
  | [] => []
  | (k, s) :: ps => (k, plain s) :: plains ps
end

theorem plain_msg (m : MsgType) : m.schema = plain m.jschema := by
  cases m with
  | req r => cases r <;> rfl
  | resp r => cases r <;> rfl

theorem plains_keys (ps : List (Text × JSchema)) : (plains ps).map Prod.fst = ps.map Prod.fst := by
  induction ps with
  | nil => rfl
  | cons p ps ih => obtain ⟨k, s⟩ := p; simp [plains, ih]

theorem plains_lookup (ps : List (Text × JSchema)) (k : Text) : (plains ps).lookup k = (ps.lookup k).map plain := by
  induction ps with
  | nil => rfl
  | cons p ps ih =>
    obtain ⟨k', s⟩ := p
    simp only [plains, List.lookup_cons]
    cases k == k' <;> simp [ih]

mutual
/-- The type reads all that the schema allows. -/
def jfits : Ty → JSchema → Bool
  | .ptr t, s => jfits t s
  | .str, .str _ _ => true
  | .time, .str _ _ => true
  | .int b, .int => b == 32 || b == 64
  | .float, .num => true
  | .bool, .bool => true
  | .slice t, .arr it => notStruct t && jfits t it
  | .struct info ts, .obj props _ closed =>
    (decide ((props.map Prod.fst).Nodup) && decide ((info.fields.map FieldInfo.json).Nodup) &&
      (props.all fun p => info.fields.any fun f => f.json == p.1) && (!reflective info || closed)) && jfitss info.fields ts props
  | _, _ => false
/-- The same for fields. -/
def jfitss : List FieldInfo → List Ty → List (Text × JSchema) → Bool
  | f :: fs, t :: ts, props =>
    (match props.lookup f.json with
     | none => true
     | some s => jfits t s) && notStruct t && jfitss fs ts props
  | [], [], _ => true
  | _, _, _ => false
end

set_option maxRecDepth 8000 in
theorem jfits_msg (m : MsgType) : jfits m.ty m.jschema = true := by
  cases m with
  | req r => cases r <;> decide
  | resp r => cases r <;> decide

theorem jfitss_get {fs : List FieldInfo} {ts : List Ty} {props : List (Text × JSchema)} (h : jfitss fs ts props = true) :
    fs.length = ts.length ∧ ∀ (i : Nat) f t s, fs[i]? = some f → ts[i]? = some t → props.lookup f.json = some s → jfits t s = true ∧ notStruct t = true := by
  induction fs generalizing ts with
  | nil =>
    cases ts with
    | nil => simp
    | cons t ts => simp [jfitss] at h
  | cons f fs ih =>
    cases ts with
    | nil => simp [jfitss] at h
    | cons t ts =>
      simp only [jfitss, Bool.and_eq_true] at h
      obtain ⟨⟨h1, hns⟩, h2⟩ := h
      obtain ⟨h3, h4⟩ := ih h2
      refine ⟨by simp [h3], ?_⟩
      intro i f' t' s hf ht hs
      cases i with
      | zero =>
        simp at hf ht; subst hf ht
        rw [hs] at h1
        exact ⟨h1, hns⟩
      | succ i => exact h4 i f' t' s (by simpa using hf) (by simpa using ht) hs

/-! ### Fields read one after the other -/

theorem reads_of_lenient {fs : List FieldInfo} {rs : List Reader} (hf : (fs.map FieldInfo.json).Nodup) (hrl : rs.length = fs.length)
    {ms : List (Text × JVal)} (hn : (ms.map Prod.fst).Nodup) (hk : ∀ k ∈ ms.map Prod.fst, k ∈ fs.map FieldInfo.json)
    {vs tv : List Val} (hl : vs.length = fs.length) (h : readLenient fs rs ms vs = some tv) : Reads ms fs rs vs tv := by
  induction ms generalizing vs with
  | nil =>
    simp only [readLenient, Option.some.injEq] at h
    subst h
    refine ⟨rfl, fun i f hfi => ?_⟩
    have hi := (List.getElem?_eq_some_iff.1 hfi).1
    exact ⟨_, _, _, List.getElem?_eq_getElem (by omega), List.getElem?_eq_getElem (by omega), List.getElem?_eq_getElem (by omega), Or.inr ⟨by simp, rfl⟩⟩
  | cons m ms ih =>
    obtain ⟨k, j⟩ := m
    simp only [List.map_cons, List.nodup_cons, List.mem_cons, forall_eq_or_imp] at hn hk
    obtain ⟨f, hfm, rfl⟩ := List.mem_map.1 hk.1
    obtain ⟨i, hi⟩ := List.mem_iff_getElem?.1 hfm
    simp only [readLenient, fieldOf_self hf hi] at h
    have hil := (List.getElem?_eq_some_iff.1 hi).1
    obtain ⟨r, h1⟩ : ∃ r, rs[i]? = some r := ⟨_, List.getElem?_eq_getElem (by omega)⟩
    obtain ⟨v, h2⟩ : ∃ v, vs[i]? = some v := ⟨_, List.getElem?_eq_getElem (by omega)⟩
    rw [h1, h2] at h
    simp only [] at h
    cases hr : r j v with
    | none => rw [hr] at h; cases h
    | some v' =>
      rw [hr] at h
      simp only [] at h
      have hR := ih hn.2 hk.2 (vs := vs.set i v') (by simpa using hl) h
      refine ⟨by simpa using hR.1, ?_⟩
      intro i' f' hf'
      obtain ⟨r', w, w', g1, g2, g3, g4⟩ := hR.2 i' f' hf'
      by_cases e : i = i'
      · subst e
        rw [hi] at hf'; cases hf'
        rw [List.getElem?_set_self (List.getElem?_eq_some_iff.1 h2).1] at g2
        cases g2
        rw [h1] at g1; cases g1
        refine ⟨r, v, w', h1, h2, g3, ?_⟩
        rcases g4 with ⟨j', g4, _⟩ | ⟨_, rfl⟩
        · exact absurd (List.mem_map_of_mem (f := Prod.fst) g4) hn.1
        · exact Or.inl ⟨j, by simp, hr⟩
      · rw [List.getElem?_set_ne e] at g2
        refine ⟨r', w, w', g1, g2, g3, ?_⟩
        have hne : f'.json ≠ f.json := by
          intro he
          have a := fieldOf_self hf hf'
          have b := fieldOf_self hf hi
          rw [he, b] at a
          exact e (by simpa using a)
        rcases g4 with ⟨j', g4, g5⟩ | ⟨g4, g5⟩
        · exact Or.inl ⟨j', List.mem_cons_of_mem _ g4, g5⟩
        · refine Or.inr ⟨?_, g5⟩
          simp only [List.map_cons, List.mem_cons, not_or]
          exact ⟨hne, g4⟩

/-- A struct that is read from an object with all required properties and, if it must not have others, no others. -/
theorem readStruct_iff {info : StructInfo} {rs : List Reader} {props : List (Text × Schema)} {required : List Text} {closed : Bool}
    {ms : List (Text × JVal)} {zs : List Val} (hf : (info.fields.map FieldInfo.json).Nodup) (hrl : rs.length = info.fields.length)
    (hzl : zs.length = info.fields.length) (hn : (ms.map Prod.fst).Nodup) (hreq : ∀ k ∈ required, k ∈ ms.map Prod.fst)
    (hcl : closed = true → ∀ k ∈ ms.map Prod.fst, k ∈ props.map Prod.fst) (hall : ∀ k ∈ props.map Prod.fst, k ∈ info.fields.map FieldInfo.json)
    (hre : reflective info = true → closed = true) (v : Val) :
    readStruct info rs (.obj props required closed) (.obj ms) (.struct zs) = some v ↔ ∃ vs, v = .struct vs ∧ vs.length = zs.length ∧
      ∀ (i : Nat) f r z, info.fields[i]? = some f → rs[i]? = some r → zs[i]? = some z → ∃ v', vs[i]? = some v' ∧
        Picked (if (props.map Prod.fst).contains f.json then lastVal ms f.json else none) r z v' := by
  simp only [readStruct, Val.fields]
  by_cases hr : reflective info = true
  · rw [if_pos hr]
    have hkf : ∀ k ∈ ms.map Prod.fst, k ∈ info.fields.map FieldInfo.json := fun k hk => hall k (hcl (hre hr) k hk)
    simp only [Option.map_eq_some_iff]
    have hpick : ∀ (f : FieldInfo) (r : Reader) (z v' : Val), Picked (if (props.map Prod.fst).contains f.json then lastVal ms f.json else none) r z v' ↔
        ((∃ j, (f.json, j) ∈ ms ∧ r j z = some v') ∨ (f.json ∉ ms.map Prod.fst ∧ z = v')) := by
      intro f r z v'
      have hx : (if (props.map Prod.fst).contains f.json then lastVal ms f.json else none) = lastVal ms f.json := by
        by_cases hc : (props.map Prod.fst).contains f.json = true
        · rw [if_pos hc]
        · rw [if_neg hc, eq_comm, lastVal_none]
          intro hk
          exact hc (List.contains_iff_mem.2 (hcl (hre hr) _ hk))
      rw [hx]
      cases hl : lastVal ms f.json with
      | none =>
        have := lastVal_none.1 hl
        simp only [Picked]
        constructor
        · rintro rfl; exact Or.inr ⟨this, rfl⟩
        · rintro (⟨j, hj, _⟩ | ⟨_, rfl⟩)
          · exact absurd (List.mem_map_of_mem (f := Prod.fst) hj) this
          · rfl
      | some j =>
        have hj := (lastVal_nodup hn).1 hl
        simp only [Picked]
        constructor
        · intro h; exact Or.inl ⟨j, hj, h⟩
        · rintro (⟨j', hj', h⟩ | ⟨h, _⟩)
          · have := (lastVal_nodup hn).2 hj'
            rw [hl] at this; cases this
            exact h
          · exact absurd (List.mem_map_of_mem (f := Prod.fst) hj) h
    constructor
    · rintro ⟨tv, h, rfl⟩
      have hR := reads_of_lenient hf hrl hn hkf hzl h
      refine ⟨tv, rfl, hR.1, ?_⟩
      intro i f r z hfi hri hzi
      obtain ⟨r', w, w', g1, g2, g3, g4⟩ := hR.2 i f hfi
      rw [hri] at g1; cases g1
      rw [hzi] at g2; cases g2
      exact ⟨w', g3, (hpick _ _ _ _).2 g4⟩
    · rintro ⟨vs, rfl, hvl, h⟩
      refine ⟨vs, readLenient_of hf hn hkf hzl ⟨hvl, ?_⟩, rfl⟩
      intro i f hfi
      have hi := (List.getElem?_eq_some_iff.1 hfi).1
      obtain ⟨r, h1⟩ : ∃ r, rs[i]? = some r := ⟨_, List.getElem?_eq_getElem (by omega)⟩
      obtain ⟨z, h2⟩ : ∃ v, zs[i]? = some v := ⟨_, List.getElem?_eq_getElem (by omega)⟩
      obtain ⟨v', h3, h4⟩ := h i f r z hfi h1 h2
      exact ⟨r, z, v', h1, h2, h3, (hpick _ _ _ _).1 h4⟩
  · rw [if_neg hr, if_pos]
    · simp only [Option.map_eq_some_iff]
      constructor
      · rintro ⟨vs, h, rfl⟩
        exact ⟨vs, rfl, (readFields_iff hrl hzl vs).1 h⟩
      · rintro ⟨vs, rfl, h⟩
        exact ⟨vs, (readFields_iff hrl hzl vs).2 h, rfl⟩
    · exact ⟨fun hc m hm => List.contains_iff_mem.2 (hcl hc _ (List.mem_map_of_mem hm)), fun k hk => List.contains_iff_mem.2 (hreq k hk)⟩

theorem lastVal_mem {ms : List (Text × JVal)} {k : Text} {j : JVal} (h : lastVal ms k = some j) : (k, j) ∈ ms := by
  induction ms with
  | nil => cases h
  | cons m ms ih =>
    obtain ⟨k', j'⟩ := m
    simp only [lastVal] at h
    cases hl : lastVal ms k with
    | some x => rw [hl] at h; cases h; exact List.mem_cons_of_mem _ (ih hl)
    | none =>
      rw [hl] at h
      simp only [] at h
      split at h
      · rename_i e; cases h; simp [e]
      · cases h

theorem lastVal_entries (F : FloatFmt) {p : Payload} (hs : (p.map Prod.fst).Pairwise (fun a b => keyLt a b = true)) (k : Text) :
    lastVal (jsonOfEntries F p) k = (p.lookup k).map (jsonOf F) := by
  cases h : p.lookup k with
  | some a =>
    obtain ⟨pre, post, he, hp⟩ := entries_split (F := F) h hs
    rw [he, lastVal_last pre _ hp]
    rfl
  | none =>
    rw [jsonOfEntries_map]
    simp only [Option.map_none, lastVal_none, List.map_map]
    intro hk
    rw [List.lookup_eq_none_iff] at h
    obtain ⟨e, he, hek⟩ := List.mem_map.1 hk
    have := h e he
    simp at hek
    simp [hek] at this

theorem entries_keys (F : FloatFmt) (p : Payload) : (jsonOfEntries F p).map Prod.fst = p.map Prod.fst := by
  rw [jsonOfEntries_map, List.map_map]
  rfl

theorem keys_nodup {ks : List Text} (hs : ks.Pairwise (fun a b => keyLt a b = true)) : ks.Nodup := by
  refine hs.imp ?_
  intro a b h e
  subst e
  rw [keyLt_irrefl] at h
  cases h

theorem allSome_iff {α : Type} (l : List (Option α)) (bs : List α) :
    allSome l = some bs ↔ l.length = bs.length ∧ ∀ (i : Nat) x b, l[i]? = some x → bs[i]? = some b → x = some b := by
  induction l generalizing bs with
  | nil =>
    simp only [allSome, Option.some.injEq]
    constructor
    · rintro rfl; simp
    · rintro ⟨h, -⟩
      exact (List.length_eq_zero_iff.1 h.symm).symm
  | cons x l ih =>
    cases x with
    | none =>
      simp only [allSome, reduceCtorEq, false_iff]
      rintro ⟨h1, h2⟩
      cases bs with
      | nil => simp at h1
      | cons b bs => exact absurd (h2 0 none b rfl rfl) (by simp)
    | some a =>
      simp only [allSome, Option.map_eq_some_iff]
      constructor
      · rintro ⟨cs, h, rfl⟩
        obtain ⟨h1, h2⟩ := (ih cs).1 h
        refine ⟨by simp [h1], ?_⟩
        intro i x b hx hb
        cases i with
        | zero => simp at hx hb; subst hx hb; rfl
        | succ i => exact h2 i x b (by simpa using hx) (by simpa using hb)
      · rintro ⟨h1, h2⟩
        cases bs with
        | nil => simp at h1
        | cons b bs =>
          have := h2 0 (some a) b rfl rfl
          cases this
          exact ⟨bs, (ih bs).2 ⟨by simpa using h1, fun i x b' hx hb => h2 (i + 1) x b' (by simpa using hx) (by simpa using hb)⟩, rfl⟩

theorem jsonOfs_map (F : FloatFmt) (as : List GoAny) : jsonOfs F as = as.map (jsonOf F) := by
  induction as with
  | nil => rfl
  | cons a as ih => simp [jsonOfs, ih]

theorem holds_notNull {j : JVal} (h : j ≠ .null) {a : GoAny} (hh : Holds j a) {F : FloatFmt} : jsonOf F a ≠ .null := by
  cases hh <;> simp [jsonOf] at h ⊢

theorem gets_null {f : ℤ → ℤ} {t : Ty} {sch : JSchema} {v : Val} : Gets f t sch .null v ↔ v = zeroVal t := by
  constructor
  · intro h
    cases h with
    | null => rfl
    | ptr h _ => exact absurd rfl h
  · rintro rfl; exact .null

theorem part_null {t t' : Ty} {sch : JSchema} {j j' : JVal} (h : Part t sch j t' j') (hj : j = .null) : j' = .null := by
  induction h with
  | str | bool | float | int | time => exact hj
  | ptr _ ih => exact ih hj
  | item => cases hj
  | prop => cases hj

theorem conforms_lax {sch : JSchema} {j : JVal} (h : Conforms sch j) : Lax sch j := by
  induction h with
  | str _ => exact .str
  | int _ => exact .int
  | num => exact .num
  | bool => exact .bool
  | arr _ ih => exact .arr ih
  | obj _ h2 h3 ih => exact .obj (fun k sch j hk hj => ih k sch j hk (lastVal_mem hj)) h2 h3

theorem zeroVals_eq_map (ts : List Ty) : zeroVals ts = ts.map zeroVal := by
  induction ts with
  | nil => rfl
  | cons t ts ih => simp [zeroVals, ih]

mutual
/-- What is read of a valid value. -/
theorem gets_iff (F : FloatFmt) (t : Ty) (sch : JSchema) (hfit : jfits t sch = true) (j : JVal) (hc : Lax sch j) (hn : notStruct t = true ∨ j ≠ .null)
    (a : GoAny) (hh : Holds j a)
    (v : Val) : read t (plain sch) (jsonOf F a) (zeroVal t) = some v ↔ Gets (onWire F) t sch j v := by
  by_cases hj0 : j = .null
  · subst hj0
    cases hh
    have hns : notStruct t = true := by rcases hn with h | h; exact h; exact absurd rfl h
    simp only [jsonOf]
    rw [read_null hns, gets_null, Option.some.injEq, eq_comm]
  match t with
  | .str =>
    cases hc <;> first | exact absurd rfl hj0 | simp only [jfits, Bool.false_eq_true] at hfit
    cases hh
    simp only [jsonOf, read, Option.some.injEq]
    constructor
    · rintro rfl; exact .str
    · intro h; cases h; rfl
  | .bool =>
    cases hc <;> first | exact absurd rfl hj0 | simp only [jfits, Bool.false_eq_true] at hfit
    cases hh
    simp only [jsonOf, read, Option.some.injEq]
    constructor
    · rintro rfl; exact .bool
    · intro h; cases h; rfl
  | .float =>
    cases hc <;> first | exact absurd rfl hj0 | simp only [jfits, Bool.false_eq_true] at hfit
    cases hh with
    | num hl =>
    rename_i l q
    simp only [jsonOf, read]
    rw [F.roundtrip _ (fl64_isF64 hl)]
    simp only [Option.map_some, Option.some.injEq]
    constructor
    · rintro rfl; exact .float hl
    · intro h
      cases h with
      | float h' => rw [isNum_eq hl h']
  | .int b =>
    cases hc with
    | int =>
      cases hh with
      | num hl =>
      rename_i l q
      simp only [jfits, Bool.or_eq_true, beq_iff_eq] at hfit
      simp only [jsonOf, read]
      have key := int_read F hfit hl
      constructor
      · intro h
        split at h
        · rename_i hc
          cases h
          obtain ⟨k, h1, h2⟩ := (key _).1 ⟨hc, rfl⟩
          rw [h2]
          exact .int h1
        · cases h
      · intro h
        cases h with
        | int hk =>
          rename_i k
          obtain ⟨h1, h2⟩ := (key (onWire F k)).2 ⟨k, hk, rfl⟩
          rw [if_pos h1, h2]
    | null => exact absurd rfl hj0
    | _ => simp only [jfits, Bool.false_eq_true] at hfit
  | .time =>
    cases hc <;> first | exact absurd rfl hj0 | simp only [jfits, Bool.false_eq_true] at hfit
    cases hh
    rename_i s _
    simp only [jsonOf, read, Option.map_eq_some_iff, Cal.parseTime_iff]
    constructor
    · rintro ⟨g, ⟨st, h1, h2, h3⟩, rfl⟩; exact .time h1 h2 h3
    · intro h
      cases h with
      | time h1 h2 h3 => exact ⟨_, ⟨_, h1, h2, h3⟩, rfl⟩
  | .ptr t =>
    have hnn := holds_notNull hj0 hh (F := F)
    have he : read (.ptr t) (plain sch) (jsonOf F a) (zeroVal (.ptr t)) = (read t (plain sch) (jsonOf F a) (zeroVal t)).map .ptr := by
      revert hnn
      cases jsonOf F a <;> intro hnn <;> first | exact absurd rfl hnn | rfl
    rw [he, Option.map_eq_some_iff]
    have ih := fun v => gets_iff F t sch (by simpa [jfits] using hfit) j hc (Or.inr hj0) a hh v
    constructor
    · rintro ⟨w, h, rfl⟩
      exact .ptr hj0 ((ih w).1 h)
    · intro h
      cases h with
      | null => exact absurd rfl hj0
      | ptr _ h => exact ⟨_, (ih _).2 h, rfl⟩
  | .slice t =>
    cases hc with
    | arr hcs =>
      rename_i it js
      cases hh with
      | arr hlen hall =>
      rename_i as
      obtain ⟨hnt, hfit'⟩ : notStruct t = true ∧ jfits t it = true := by simpa [jfits] using hfit
      simp only [jsonOf, plain, read, Option.map_eq_some_iff, allSome_iff, jsonOfs_map]
      have ih := fun j hj a ha v => gets_iff F t it hfit' j hj (Or.inl hnt) a ha v
      constructor
      · rintro ⟨vs, ⟨h1, h2⟩, rfl⟩
        simp only [List.length_map] at h1
        refine .slice (by omega) ?_
        intro i j v hj hv
        have hi := (List.getElem?_eq_some_iff.1 hj).1
        obtain ⟨a, ha⟩ : ∃ a, as[i]? = some a := ⟨_, List.getElem?_eq_getElem (by omega)⟩
        have := h2 i _ v (by rw [List.getElem?_map, List.getElem?_map, ha]; rfl) hv
        exact (ih j (hcs j (List.mem_of_getElem? hj)) a (hall i j a hj ha) v).1 this
      · intro h
        cases h with
        | slice h1 h2 =>
          rename_i vs
          refine ⟨vs, ⟨by simp only [List.length_map]; omega, ?_⟩, rfl⟩
          intro i x v hx hv
          rw [List.getElem?_map, List.getElem?_map, Option.map_map, Option.map_eq_some_iff] at hx
          obtain ⟨a, ha, rfl⟩ := hx
          have hi := (List.getElem?_eq_some_iff.1 ha).1
          obtain ⟨j, hj⟩ : ∃ j, js[i]? = some j := ⟨_, List.getElem?_eq_getElem (by omega)⟩
          exact (ih j (hcs j (List.mem_of_getElem? hj)) a (hall i j a hj ha) v).2 (h2 i j v hj hv)
    | null => exact absurd rfl hj0
    | _ => simp only [jfits, Bool.false_eq_true] at hfit
  | .struct info ts =>
    cases hc with
    | obj hc1 hc2 hc3 =>
      rename_i props required closed ms
      cases hh with
      | obj hs hl hsome hr =>
      rename_i p
      simp only [jfits, Bool.and_eq_true, decide_eq_true_eq, List.all_eq_true, List.any_eq_true, beq_iff_eq, Bool.or_eq_true, Bool.not_eq_true'] at hfit
      obtain ⟨⟨⟨⟨hnp, hnf⟩, hall⟩, hre⟩, hfs⟩ := hfit
      obtain ⟨hlen, hget⟩ := jfitss_get hfs
      have hkeys : ∀ k, k ∈ (jsonOfEntries F p).map Prod.fst ↔ k ∈ ms.map Prod.fst := by
        intro k
        rw [← not_iff_not, ← lastVal_none, ← lastVal_none, lastVal_entries F hs, Option.map_eq_none_iff]
        have := hsome k
        cases h1 : p.lookup k <;> cases h2 : lastVal ms k <;> simp [h1, h2] at this ⊢
      simp only [jsonOf, plain, read, zeroVal]
      have hrl : (readers ts info.fields (plains props)).length = info.fields.length := readers_length _ _ _ hlen
      rw [readStruct_iff hnf hrl (by rw [zeroVals_length, hlen]) (by rw [entries_keys]; exact keys_nodup hs)
        (fun k hk => (hkeys k).2 (hc2 k hk)) (fun hcl k hk => by rw [plains_keys]; exact hc3 hcl k ((hkeys k).1 hk))
        (by
          intro k hk
          rw [plains_keys] at hk
          obtain ⟨x, hx, rfl⟩ := List.mem_map.1 hk
          obtain ⟨f, hf, e⟩ := hall x hx
          rw [← e]; exact List.mem_map_of_mem hf)
        (fun h => by rcases hre with h' | h' <;> simp_all)]
      have ih := gets_each F ts
      -- one field
      have hone : ∀ (i : Nat) f t v', info.fields[i]? = some f → ts[i]? = some t →
          (Picked (if ((plains props).map Prod.fst).contains f.json then lastVal (jsonOfEntries F p) f.json else none)
            (read t (((plains props).lookup f.json).getD .str)) (zeroVal t) v' ↔
          (∀ sch j, (f.json, sch) ∈ props → lastVal ms f.json = some j → Gets (onWire F) t sch j v') ∧
          ((f.json ∉ props.map Prod.fst ∨ lastVal ms f.json = none) → v' = zeroVal t)) := by
        intro i f t v' hf ht
        rw [plains_keys, plains_lookup, lastVal_entries F hs]
        by_cases hk : f.json ∈ props.map Prod.fst
        · rw [if_pos (List.contains_iff_mem.2 hk)]
          obtain ⟨x, hx, hxe⟩ := List.mem_map.1 hk
          obtain ⟨k, s⟩ := x
          simp only at hxe
          subst hxe
          have hlk := Conf.lookup_of_mem hnp hx
          cases hlv : lastVal ms f.json with
          | none =>
            have hno : p.lookup f.json = none := by
              have := hsome f.json
              rw [hlv] at this
              simpa using this
            rw [hno]
            simp [Picked]
          | some j =>
            have := hsome f.json
            rw [hlv] at this
            obtain ⟨a, ha⟩ := Option.isSome_iff_exists.1 this
            rw [ha, hlk]
            simp only [Option.map_some, Option.getD_some, Picked]
            rw [ih t (List.mem_of_getElem? ht) s (hget i f t s hf ht hlk).1 j (hc1 _ s j hx hlv) (Or.inl (hget i f t s hf ht hlk).2) a (hl _ _ _ ha hlv) v']
            constructor
            · intro h
              refine ⟨?_, ?_⟩
              · intro s' j' hs' hj'
                cases hj'
                have := Conf.lookup_of_mem hnp hs'
                rw [hlk] at this; cases this
                exact h
              · rintro (h' | h')
                · exact absurd hk h'
                · cases h'
            · rintro ⟨h, -⟩
              exact h s j hx rfl
        · rw [if_neg (fun h => hk (List.contains_iff_mem.1 h))]
          simp only [Picked]
          constructor
          · intro h
            refine ⟨?_, fun _ => h⟩
            intro s j hs'
            exact absurd (List.mem_map_of_mem (f := Prod.fst) hs') hk
          · rintro ⟨-, h⟩
            exact h (Or.inl hk)
      constructor
      · rintro ⟨vs, rfl, h1, h2⟩
        rw [zeroVals_length] at h1
        have h3 : ∀ (i : Nat) f t v', info.fields[i]? = some f → ts[i]? = some t → vs[i]? = some v' →
            (∀ sch j, (f.json, sch) ∈ props → lastVal ms f.json = some j → Gets (onWire F) t sch j v') ∧
            ((f.json ∉ props.map Prod.fst ∨ lastVal ms f.json = none) → v' = zeroVal t) := by
          intro i f t v' hf ht hv'
          obtain ⟨v'', hv'', hp⟩ := h2 i f _ _ hf (readers_get ht hf) (zeroVals_get ht)
          rw [hv'] at hv''; cases hv''
          exact (hone i f t v' hf ht).1 hp
        refine .struct h1 ?_ ?_ ?_
        · intro k hk
          obtain ⟨x, hx, rfl⟩ := List.mem_map.1 hk
          exact hall x hx
        · intro i f t v' s j hf ht hv' hs' hj'
          exact (h3 i f t v' hf ht hv').1 s j hs' hj'
        · intro i f t v' hf ht hv'
          exact (h3 i f t v' hf ht hv').2
      · intro h
        cases h with
        | @struct _ _ _ _ _ _ vs h1 _ h3 h4 =>
          refine ⟨vs, rfl, by rw [zeroVals_length]; exact h1, ?_⟩
          intro i f r z hf hr' hz
          have hi := (List.getElem?_eq_some_iff.1 hf).1
          obtain ⟨t, ht⟩ : ∃ t, ts[i]? = some t := ⟨_, List.getElem?_eq_getElem (by omega)⟩
          obtain ⟨v', hv'⟩ : ∃ v, vs[i]? = some v := ⟨_, List.getElem?_eq_getElem (by omega)⟩
          rw [readers_get ht hf] at hr'; cases hr'
          rw [zeroVals_get ht] at hz; cases hz
          exact ⟨v', hv', (hone i f t v' hf ht).2 ⟨fun s j hs' hj' => h3 i f t v' s j hf ht hv' hs' hj', h4 i f t v' hf ht hv'⟩⟩
    | null => exact absurd rfl hj0
    | _ => simp only [jfits, Bool.false_eq_true] at hfit
  termination_by structural t
theorem gets_each (F : FloatFmt) (ts : List Ty) : ∀ t ∈ ts, ∀ (sch : JSchema) (_ : jfits t sch = true) (j : JVal) (_ : Lax sch j) (_ : notStruct t = true ∨ j ≠ .null) (a : GoAny)
    (_ : Holds j a) (v : Val), read t (plain sch) (jsonOf F a) (zeroVal t) = some v ↔ Gets (onWire F) t sch j v := by
  match ts with
  | [] => exact fun t ht => by cases ht
  | t :: ts =>
    intro t' ht' sch hfit j hc hn a hh v
    rcases List.mem_cons.1 ht' with e | e
    · rw [e] at hfit hn ⊢
      exact gets_iff F t sch hfit j hc hn a hh v
    · exact gets_each F ts t' e sch hfit j hc hn a hh v
  termination_by structural ts
end

theorem exists_list {ts : List Ty} {P : Nat → Ty → Val → Prop} (h : ∀ (i : Nat) t, ts[i]? = some t → ∃ v, P i t v) :
    ∃ vs : List Val, vs.length = ts.length ∧ ∀ (i : Nat) t v, ts[i]? = some t → vs[i]? = some v → P i t v := by
  induction ts generalizing P with
  | nil => exact ⟨[], rfl, fun i t v ht => by simp at ht⟩
  | cons t ts ih =>
    obtain ⟨v, hv⟩ := h 0 t rfl
    obtain ⟨vs, h1, h2⟩ := ih (P := fun i => P (i + 1)) (fun i t ht => h (i + 1) t (by simpa using ht))
    refine ⟨v :: vs, by simp [h1], ?_⟩
    intro i t' v' ht' hv'
    cases i with
    | zero => simp at ht' hv'; subst ht' hv'; exact hv
    | succ i => exact h2 i t' v' (by simpa using ht') (by simpa using hv')

theorem exists_each {js : List JVal} {P : JVal → Val → Prop} (h : ∀ j ∈ js, ∃ v, P j v) :
    ∃ vs : List Val, js.length = vs.length ∧ ∀ (i : Nat) j v, js[i]? = some j → vs[i]? = some v → P j v := by
  induction js with
  | nil => exact ⟨[], rfl, fun i t v ht => by simp at ht⟩
  | cons j js ih =>
    obtain ⟨v, hv⟩ := h j (by simp)
    obtain ⟨vs, h1, h2⟩ := ih (fun j hj => h j (List.mem_cons_of_mem _ hj))
    refine ⟨v :: vs, by simp [h1], ?_⟩
    intro i t' v' ht' hv'
    cases i with
    | zero => simp at ht' hv'; subst ht' hv'; exact hv
    | succ i => exact h2 i t' v' (by simpa using ht') (by simpa using hv')

mutual
/-- A valid value is read exactly if all parts can be taken. -/
theorem takable_iff (f : ℤ → ℤ) (t : Ty) (sch : JSchema) (hfit : jfits t sch = true) (j : JVal) (hc : Lax sch j) (hn : notStruct t = true ∨ j ≠ .null)
    (a : GoAny) (hh : Holds j a) :
    (∃ v, Gets f t sch j v) ↔ ∀ t' j', Part t sch j t' j' → Takable t' j' := by
  by_cases hj0 : j = .null
  · subst hj0
    refine iff_of_true ⟨_, .null⟩ ?_
    intro t' j' hp
    have : j' = .null := part_null hp rfl
    subst this
    cases t' <;> trivial
  match t with
  | .str =>
    cases hc <;> first | exact absurd rfl hj0 | simp only [jfits, Bool.false_eq_true] at hfit
    refine iff_of_true ⟨_, .str⟩ ?_
    intro t' j' h; cases h; trivial
  | .bool =>
    cases hc <;> first | exact absurd rfl hj0 | simp only [jfits, Bool.false_eq_true] at hfit
    refine iff_of_true ⟨_, .bool⟩ ?_
    intro t' j' h; cases h; trivial
  | .float =>
    cases hc <;> first | exact absurd rfl hj0 | simp only [jfits, Bool.false_eq_true] at hfit
    cases hh with
    | num hl =>
    refine iff_of_true ⟨_, .float hl⟩ ?_
    intro t' j' h; cases h; trivial
  | .int b =>
    cases hc <;> first | exact absurd rfl hj0 | simp only [jfits, Bool.false_eq_true] at hfit
    constructor
    · rintro ⟨v, h⟩ t' j' hp
      cases h with
      | int hk => cases hp; exact ⟨_, hk⟩
    · intro h
      obtain ⟨k, hk⟩ := h _ _ .int
      exact ⟨_, .int hk⟩
  | .time =>
    cases hc <;> first | exact absurd rfl hj0 | simp only [jfits, Bool.false_eq_true] at hfit
    constructor
    · rintro ⟨v, h⟩ t' j' hp
      cases h with
      | time h1 h2 h3 => cases hp; exact ⟨_, _, h1, h2, h3⟩
    · intro h
      obtain ⟨st, g, h1, h2, h3⟩ := h _ _ .time
      exact ⟨_, .time h1 h2 h3⟩
  | .ptr t =>
    have ih := takable_iff f t sch (by simpa [jfits] using hfit) j hc (Or.inr hj0) a hh
    constructor
    · rintro ⟨v, h⟩ t' j' hp
      cases h with
      | null => exact absurd rfl hj0
      | ptr _ h => cases hp with
        | ptr hp => exact ih.1 ⟨_, h⟩ t' j' hp
    · intro h
      obtain ⟨v, hv⟩ := ih.2 (fun t' j' hp => h t' j' (.ptr hp))
      exact ⟨_, .ptr hj0 hv⟩
  | .slice t =>
    cases hc with
    | arr hcs =>
      rename_i it js
      cases hh with
      | arr hlen hall =>
      rename_i as
      obtain ⟨hnt, hfit'⟩ : notStruct t = true ∧ jfits t it = true := by simpa [jfits] using hfit
      have ih : ∀ j ∈ js, ((∃ v, Gets f t it j v) ↔ ∀ t' j', Part t it j t' j' → Takable t' j') := by
        intro j hj
        obtain ⟨i, hi⟩ := List.mem_iff_getElem?.1 hj
        have hil := (List.getElem?_eq_some_iff.1 hi).1
        obtain ⟨a, ha⟩ : ∃ a, as[i]? = some a := ⟨_, List.getElem?_eq_getElem (by omega)⟩
        exact takable_iff f t it hfit' j (hcs j hj) (Or.inl hnt) a (hall i j a hi ha)
      constructor
      · rintro ⟨v, h⟩ t' j' hp
        cases h with
        | @slice _ _ _ vs h1 h2 => cases hp with
          | @item _ _ _ j _ _ hj hp =>
            obtain ⟨i, hi⟩ := List.mem_iff_getElem?.1 hj
            have hil := (List.getElem?_eq_some_iff.1 hi).1
            obtain ⟨v, hv⟩ : ∃ a, vs[i]? = some a := ⟨_, List.getElem?_eq_getElem (by omega)⟩
            exact (ih j hj).1 ⟨v, h2 i j v hi hv⟩ t' j' hp
      · intro h
        obtain ⟨vs, h1, h2⟩ := exists_each (fun j hj => (ih j hj).2 fun t' j' hp => h t' j' (.item hj hp))
        exact ⟨_, .slice h1 h2⟩
    | null => exact absurd rfl hj0
    | _ => simp only [jfits, Bool.false_eq_true] at hfit
  | .struct info ts =>
    cases hc with
    | obj hc1 hc2 hc3 =>
      rename_i props required closed ms
      cases hh with
      | obj hs hl hsome hr =>
      rename_i p
      simp only [jfits, Bool.and_eq_true, decide_eq_true_eq, List.all_eq_true, List.any_eq_true, beq_iff_eq, Bool.or_eq_true, Bool.not_eq_true'] at hfit
      obtain ⟨⟨⟨⟨hnp, hnf⟩, hall⟩, hre⟩, hfs⟩ := hfit
      obtain ⟨hlen, hget⟩ := jfitss_get hfs
      have ihs := takable_each f ts
      have ih : ∀ (i : Nat) fl t s j, info.fields[i]? = some fl → ts[i]? = some t → (fl.json, s) ∈ props → lastVal ms fl.json = some j →
          ((∃ v, Gets f t s j v) ↔ ∀ t' j', Part t s j t' j' → Takable t' j') := by
        intro i fl t s j hf ht hs' hj
        have := hsome fl.json
        rw [hj] at this
        obtain ⟨a, ha⟩ := Option.isSome_iff_exists.1 this
        exact ihs t (List.mem_of_getElem? ht) s (hget i fl t s hf ht (Conf.lookup_of_mem hnp hs')).1 j (hc1 _ s j hs' hj)
          (Or.inl (hget i fl t s hf ht (Conf.lookup_of_mem hnp hs')).2) a (hl _ _ _ ha hj)
      constructor
      · rintro ⟨v, h⟩ t' j' hp
        cases h with
        | @struct _ _ _ _ _ _ vs h1 _ h3 _ => cases hp with
          | @prop _ _ _ _ _ _ i fl t s j _ _ hf ht hs' hj hp =>
            have hil := (List.getElem?_eq_some_iff.1 ht).1
            obtain ⟨v, hv⟩ : ∃ a, vs[i]? = some a := ⟨_, List.getElem?_eq_getElem (by omega)⟩
            exact (ih i fl t s j hf ht hs' hj).1 ⟨v, h3 i fl t v s j hf ht hv hs' hj⟩ t' j' hp
      · intro h
        have hex : ∀ (i : Nat) t, ts[i]? = some t → ∃ v, ∀ fl, info.fields[i]? = some fl →
            (∀ sch j, (fl.json, sch) ∈ props → lastVal ms fl.json = some j → Gets f t sch j v) ∧
            ((fl.json ∉ props.map Prod.fst ∨ lastVal ms fl.json = none) → v = zeroVal t) := by
          intro i t ht
          have hil := (List.getElem?_eq_some_iff.1 ht).1
          obtain ⟨fl, hf⟩ : ∃ a, info.fields[i]? = some a := ⟨_, List.getElem?_eq_getElem (by omega)⟩
          by_cases hx : fl.json ∈ props.map Prod.fst ∧ lastVal ms fl.json ≠ none
          · obtain ⟨hk, hj⟩ := hx
            obtain ⟨x, hx, hxe⟩ := List.mem_map.1 hk
            obtain ⟨k, s⟩ := x
            simp only at hxe
            subst hxe
            obtain ⟨j, hj⟩ := Option.ne_none_iff_exists'.1 hj
            obtain ⟨v, hv⟩ := (ih i fl t s j hf ht hx hj).2 fun t' j' hp => h t' j' (.prop hf ht hx hj hp)
            refine ⟨v, ?_⟩
            intro fl' hf'
            rw [hf] at hf'; cases hf'
            refine ⟨?_, ?_⟩
            · intro s' j' hs' hj'
              have e1 := Conf.lookup_of_mem hnp hs'
              rw [Conf.lookup_of_mem hnp hx] at e1; cases e1
              rw [hj] at hj'; cases hj'
              exact hv
            · rintro (h' | h')
              · exact absurd hk h'
              · rw [hj] at h'; cases h'
          · refine ⟨zeroVal t, ?_⟩
            intro fl' hf'
            rw [hf] at hf'; cases hf'
            refine ⟨?_, fun _ => rfl⟩
            intro s j hs' hj
            exact absurd ⟨List.mem_map_of_mem (f := Prod.fst) hs', by rw [hj]; simp⟩ hx
        obtain ⟨vs, h1, h2⟩ := exists_list hex
        refine ⟨_, .struct h1 ?_ (fun i fl t v s j hf ht hv => (h2 i t v ht hv fl hf).1 s j) (fun i fl t v hf ht hv => (h2 i t v ht hv fl hf).2)⟩
        intro k hk
        obtain ⟨x, hx, rfl⟩ := List.mem_map.1 hk
        exact hall x hx
    | null => exact absurd rfl hj0
    | _ => simp only [jfits, Bool.false_eq_true] at hfit
  termination_by structural t
theorem takable_each (f : ℤ → ℤ) (ts : List Ty) : ∀ t ∈ ts, ∀ (sch : JSchema) (_ : jfits t sch = true) (j : JVal) (_ : Lax sch j) (_ : notStruct t = true ∨ j ≠ .null) (a : GoAny)
    (_ : Holds j a), (∃ v, Gets f t sch j v) ↔ ∀ t' j', Part t sch j t' j' → Takable t' j' := by
  match ts with
  | [] => exact fun t ht => by cases ht
  | t :: ts =>
    intro t' ht' sch hfit j hc hn a hh
    rcases List.mem_cons.1 ht' with e | e
    · rw [e] at hfit hn ⊢
      exact takable_iff f t sch hfit j hc hn a hh
    · exact takable_each f ts t' e sch hfit j hc hn a hh
  termination_by structural ts
end

end Verif.Ocppj
