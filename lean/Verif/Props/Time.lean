import Verif.Lemmas.Stamp2
import Verif.Props.Decode
import Verif.Props.Encode
/-!
# C62: time stamps

`Spec/Calendar` says which texts are time stamps and which moments they denote, counting the days of the
Gregorian calendar one by one from 1970-01-01.
-/
set_option linter.unusedSimpArgs false
namespace Verif
open Codec Cal Json Trip

/-- The value of a time field, or of a pointer to a time. -/
def timeAs (t : Ty) (x : GoTime) : Val :=
  match t with
  | .ptr _ => .ptr (.time x)
  | _ => .time x

theorem unmarshal_time {o : Order} {t : Ty} (ht : t = .time ∨ t = .ptr .time) {s : Text} {x : Val} :
    unmarshal o t [] (.str s) (zeroVal t) = .ok x ↔
      ∃ g, x = timeAs t g ∧ ∃ st : Stamp, st.Valid ∧ st.Spelled s ∧ st.Denotes g := by
  have h1 : ∀ p old v, unmarshal o .time p (.str s) old = .ok v ↔ ∃ g, v = .time g ∧ ∃ st : Stamp, st.Valid ∧ st.Spelled s ∧ st.Denotes g := by
    intro p old v
    simp only [unmarshal, ← parseTime_iff]
    cases h : GoTime.parseTime s with
    | none => simp
    | some g => simp [eq_comm]
  rcases ht with rfl | rfl
  · rw [h1]; rfl
  · rw [show unmarshal o (.ptr .time) [] (.str s) (zeroVal (.ptr .time)) =
      (unmarshal o .time [] (.str s) (zeroVal .time)).bind fun v => .ok (.ptr v) from rfl, GoRes.bind_eq_ok]
    constructor
    · rintro ⟨v, hv, hx⟩
      obtain ⟨g, rfl, hg⟩ := (h1 _ _ _).1 hv
      simp only [GoRes.ok.injEq] at hx
      exact ⟨g, hx.symm, hg⟩
    · rintro ⟨g, rfl, hg⟩
      exact ⟨.time g, (h1 _ _ _).2 ⟨g, rfl, hg⟩, rfl⟩

/-- **C62** A time field of a decoded message whose property is a string: the string is a spelling of a valid time stamp, and
the field is the moment it denotes. -/
theorem C62_field (o : Order) (m : MsgType) (hm : m.lenient = false) (text : Text) (ms : List (Text × JVal)) (v : Val)
    (hj : JsonText (.obj ms) text) (h : decode o m.ty text = .ok v) (info : StructInfo) (ts : List Ty) (hty : m.ty = .struct info ts)
    (i : Nat) (f : FieldInfo) (t : Ty) (hf : info.fields[i]? = some f) (hti : ts[i]? = some t) (ht : t = .time ∨ t = .ptr .time)
    (pre post : List (Text × JVal)) (s : Text) (hms : ms = pre ++ (f.json, .str s) :: post) (hp : f.json ∉ post.map Prod.fst) :
    ∃ vs g, v = .struct vs ∧ vs[i]? = some (timeAs t g) ∧ ∃ st : Stamp, st.Valid ∧ st.Spelled s ∧ st.Denotes g := by
  obtain ⟨vs, x, rfl, hx, h1, -⟩ := C04_field o m hm text ms v hj h info ts hty i f t hf hti
  obtain ⟨g, rfl, hg⟩ := (unmarshal_time ht).1 (h1 pre (.str s) post hms hp)
  exact ⟨vs, g, rfl, hx, hg⟩

/-- The object of a Heartbeat response. -/
abbrev heartbeat : MsgType := .resp .cprespHeartbeat

theorem read_single {m : MsgType} (hm : m.lenient = false) {info : StructInfo} {t : Ty} {f : FieldInfo} {sch : Schema}
    (ht : m.ty = .struct info [t]) (hf : info.fields = [f]) (hs : m.schema = .obj [(f.json, sch)] [f.json] true)
    {ms : List (Text × JVal)} {v : Val} :
    m.read (.obj ms) = some v ↔ (∀ e ∈ ms, e.1 = f.json) ∧
      ∃ j x, lastVal ms f.json = some j ∧ read t sch j (zeroVal t) = some x ∧ v = .struct [x] := by
  rw [read_obj hm ht hs, hf]
  simp only [List.map_cons, List.map_nil, List.mem_singleton, forall_eq]
  refine and_congr_right fun h1 => ?_
  have hc : ([f.json] : List Text).contains f.json = true := by simp
  have hlk : (([(f.json, sch)] : List (Text × Schema)).lookup f.json).getD .str = sch := by simp
  simp only [readers, readFields, List.map_cons, List.map_nil, zeroVals, hc, if_true, hlk]
  cases hl : lastVal ms f.json with
  | none =>
    have := lastVal_none.1 hl
    simp [this]
  | some j =>
    have hk : f.json ∈ ms.map Prod.fst := by
      by_contra hn
      rw [lastVal_none.2 hn] at hl; cases hl
    simp only [hk, true_and, Option.some.injEq]
    constructor
    · rintro ⟨vs, rfl, h⟩
      cases hr : read t sch j (zeroVal t) with
      | none => rw [hr] at h; simp at h
      | some x =>
        rw [hr] at h
        simp only [Option.some.injEq] at h
        exact ⟨j, x, rfl, hr, by rw [h]⟩
    · rintro ⟨j', x, rfl, hr, rfl⟩
      refine ⟨[x], rfl, ?_⟩
      rw [hr]

theorem heartbeat_read {ms : List (Text × JVal)} {v : Val} :
    heartbeat.read (.obj ms) = some v ↔ (∀ e ∈ ms, e.1 = "currentTime".toList) ∧
      ∃ j x, lastVal ms "currentTime".toList = some j ∧ read .time .str j (zeroVal .time) = some x ∧ v = .struct [x] :=
  read_single (m := heartbeat) (f := ⟨"CurrentTime", "currentTime".toList, false, .elem, "currentTime".toList, true⟩) rfl rfl rfl rfl

theorem lastVal_all {ms : List (Text × JVal)} {k : Text} (h : ∀ e ∈ ms, e.1 = k) (j : JVal) :
    lastVal ms k = some j ↔ ms.getLast? = some (k, j) := by
  induction ms with
  | nil => simp [lastVal]
  | cons e ms ih =>
    obtain ⟨k', j'⟩ := e
    have hk : k' = k := h (k', j') (List.mem_cons_self ..)
    subst hk
    have ih := ih fun e he => h e (List.mem_cons_of_mem _ he)
    cases ms with
    | nil => simp [lastVal]
    | cons e' ms =>
      rw [List.getLast?_cons_cons, ← ih]
      have : k' ∈ (e' :: ms).map Prod.fst := by rw [List.map_cons, h e' (by simp)]; exact List.mem_cons_self ..
      have hne : lastVal (e' :: ms) k' ≠ none := fun hn => lastVal_none.1 hn this
      rw [lastVal.eq_def]
      simp only
      cases hl : lastVal (e' :: ms) k' with
      | none => exact absurd hl hne
      | some x => rfl

/-- **C62** Which texts are accepted as a Heartbeat response and as which time: a JSON object whose members are all called
`currentTime`, the last of which is a spelling of a valid time stamp (or null, which gives the zero time). -/
theorem C62_accepted (o : Order) (text : Text) (g : GoTime) :
    decode o heartbeat.ty text = .ok (.struct [.time g]) ↔
      ∃ ms j, JsonText (.obj ms) text ∧ (∀ e ∈ ms, e.1 = "currentTime".toList) ∧ ms.getLast? = some ("currentTime".toList, j) ∧
        ((∃ s, j = .str s ∧ ∃ st : Stamp, st.Valid ∧ st.Spelled s ∧ st.Denotes g) ∨ (j = .null ∧ g = GoTime.zero)) := by
  rw [(C04_decode o heartbeat text).1]
  have hj : ∀ j x, read .time .str j (zeroVal .time) = some x ↔
      (∃ s g, j = .str s ∧ x = .time g ∧ ∃ st : Stamp, st.Valid ∧ st.Spelled s ∧ st.Denotes g) ∨ (j = .null ∧ x = .time GoTime.zero) := by
    intro j x
    cases j with
    | str s =>
      simp only [read, JVal.str.injEq, reduceCtorEq, false_and, or_false, ← parseTime_iff, Option.map_eq_some_iff]
      constructor
      · rintro ⟨g, hg, rfl⟩; exact ⟨s, g, rfl, rfl, hg⟩
      · rintro ⟨s', g, rfl, rfl, hg⟩; exact ⟨g, hg, rfl⟩
    | null => simp [read, zeroVal, eq_comm]
    | _ => simp [read]
  constructor
  · rintro ⟨j, hjt, hr⟩
    rcases read_notObj hr with ⟨ms, rfl⟩ | rfl
    · obtain ⟨h1, j, x, h2, h3, h4⟩ := heartbeat_read.1 hr
      have hx : x = .time g := by simpa [eq_comm] using h4
      subst hx
      refine ⟨ms, j, hjt, h1, (lastVal_all h1 j).1 h2, ?_⟩
      rcases (hj j _).1 h3 with ⟨s, g', rfl, he, hs⟩ | ⟨rfl, he⟩
      · cases he; exact .inl ⟨s, rfl, hs⟩
      · cases he; exact .inr ⟨rfl, rfl⟩
    · exfalso
      rw [show heartbeat.read .null = none from rfl] at hr
      cases hr
  · rintro ⟨ms, j, hjt, h1, h2, h3⟩
    refine ⟨.obj ms, hjt, heartbeat_read.2 ⟨h1, j, .time g, (lastVal_all h1 j).2 h2, (hj j _).2 ?_, rfl⟩⟩
    rcases h3 with ⟨s, rfl, hs⟩ | ⟨rfl, rfl⟩
    · exact .inl ⟨s, g, rfl, rfl, hs⟩
    · exact .inr ⟨rfl, rfl⟩

theorem heartbeat_wire (F : FloatFmt) (g : GoTime) :
    wire F heartbeat.ty (.struct [.time g]) = .ok (.obj [("currentTime".toList, .str g.format)]) := rfl

theorem heartbeat_hasTy {g : GoTime} (hn : g.nano < 10 ^ 9) : HasTy heartbeat.ty (.struct [.time g]) := by
  simp only [MsgType.ty, RespType.ty, cpresp.Heartbeat, HasTy, HasTys]
  exact ⟨hn, trivial⟩

/-- **C62** Every time whatsoever is sent; what the peer makes of it.  If its year (in its zone) is within 0 to 9999 and its
zone less than 25 hours off, it arrives cut to the second and with the zone cut to the minute, the clock in that zone kept (so
the moment itself is kept exactly if the zone is in whole minutes); any other time is sent but rejected by the peer. -/
theorem C62_written (F : FloatFmt) (o : Order) (g : GoTime) (hn : g.nano < 10 ^ 9) :
    ∃ text d, marshal F heartbeat.ty (.struct [.time g]) = .ok text ∧ DayOf ((g.sec + g.off) / 86400) d ∧
      ((0 ≤ d.year ∧ d.year ≤ 9999 ∧ |g.off| < 25 * 3600) →
        decode o heartbeat.ty text =
          .ok (.struct [.time ⟨g.sec + (g.off - 60 * g.off.tdiv 60), 0, 60 * g.off.tdiv 60⟩])) ∧
      (¬ (0 ≤ d.year ∧ d.year ≤ 9999 ∧ |g.off| < 25 * 3600) → ∃ e, decode o heartbeat.ty text = .err e) := by
  have hv := heartbeat_hasTy hn
  obtain ⟨hdv, hd⟩ := date_valid g
  rcases C01_wellformed F heartbeat _ hv with ⟨text, ms, hm, hw, hval, -⟩ | ⟨e, -, hw⟩ | ⟨e, -, hw⟩
  · rw [heartbeat_wire] at hw
    cases hw
    have hjt := hval.jsonText
    refine ⟨text, _, hm, hd, ?_, ?_⟩
    · rintro ⟨h1, h2, h3⟩
      have hp := (parse_format_iff g (arrived g)).2 ⟨⟨h1, h2, by rw [Int.abs_eq_natAbs] at h3; omega⟩, rfl⟩
      have := (C62_accepted o text (arrived g)).2 ⟨_, _, hjt, by simp, rfl, .inl ⟨_, rfl, (parseTime_iff _ _).1 hp⟩⟩
      rw [this]
      unfold arrived
      rw [show g.sec + g.off - 60 * g.off.tdiv 60 = g.sec + (g.off - 60 * g.off.tdiv 60) by omega]
    · intro hno
      cases hdec : decode o heartbeat.ty text with
      | err e => exact ⟨e, rfl⟩
      | panic e => exact absurd ((C04_decode o heartbeat text).2.1) (by rw [hdec]; simp [GoRes.isPanic])
      | ok v =>
        exfalso
        have hr := (decode_iff hjt v).1 hdec
        obtain ⟨-, j, x, h2, h3, -⟩ := heartbeat_read.1 hr
        have hje : j = .str g.format := by
          have : lastVal [("currentTime".toList, JVal.str g.format)] "currentTime".toList = some (.str g.format) := by rfl
          rw [this] at h2
          exact (Option.some.inj h2).symm
        subst hje
        simp only [read, Option.map_eq_some_iff] at h3
        obtain ⟨t', ht', -⟩ := h3
        obtain ⟨⟨a, b, c⟩, -⟩ := (parse_format_iff g t').1 ht'
        exact hno ⟨a, b, by rw [Int.abs_eq_natAbs]; omega⟩
  · rw [heartbeat_wire] at hw; cases hw
  · rw [heartbeat_wire] at hw; cases hw

/-- A concrete stamp: the leap second-free end of a leap day, two hours east of Greenwich. -/
example : ∃ g : GoTime, (⟨2024, 2, 29, 23, 59, 59, [5], some (false, 2, 0)⟩ : Stamp).Valid ∧
    (⟨2024, 2, 29, 23, 59, 59, [5], some (false, 2, 0)⟩ : Stamp).Spelled "2024-02-29T23:59:59.5+02:00".toList ∧
    (⟨2024, 2, 29, 23, 59, 59, [5], some (false, 2, 0)⟩ : Stamp).Denotes g ∧ g = ⟨1709243999, 500000000, 7200⟩ := by
  refine ⟨⟨1709243999, 500000000, 7200⟩, ⟨by decide, by decide, by decide, by decide, by decide, ?_⟩,
    ⟨"23".toList, ".5".toList, .inl (by decide), .inr ⟨by decide, '.', .inl rfl, by decide⟩, by decide⟩,
    ⟨19782, (dayOf_iff _ _).2 ⟨by decide, by decide⟩, by decide, ?_, by decide⟩, rfl⟩
  · intro _ _ _ h; cases h; decide
  · rw [← fracNano_floor [5] 9]; rfl

/-- A time that is sent but not accepted: the first second of the year 10000. -/
example : ∃ g : GoTime, g.nano < 10 ^ 9 ∧ ∃ d : Date, DayOf ((g.sec + g.off) / 86400) d ∧ d.year = 10000 := by
  refine ⟨⟨253402300800, 0, 0⟩, by decide, ⟨10000, 1, 1⟩, (dayOf_iff _ _).2 ⟨by decide, by decide⟩, rfl⟩

end Verif
