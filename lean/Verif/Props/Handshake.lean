import Verif.Model.Handshake
import Verif.Props.HttpExact
/-!
# C78: subprotocols and versions
-/
namespace Verif.Http

/-- A complete opening handshake of RFC 6455 (section 4.2.1). -/
structure OpeningHandshake (r : WsRequest) : Prop where
  get : r.method = "GET"
  upgrade : AsksUpgrade r.toRequest
  version : "13" ∈ r.wsVersion
  key : r.key ≠ ""

/-- RFC 6455, section 4.1: a client fails the connection if the reply is none, or names a subprotocol that it has not
offered. -/
def StrictlyTakes (r : WsRequest) : Reply → Prop
  | .switched p => p = "" ∨ p ∈ r.offered
  | .refused _ => False

open Classical in
/-- The status of a refused handshake: 405 (method not allowed) for a request for a websocket with another method than `GET`, 400 (bad
request) for all others. -/
noncomputable def refusal (r : WsRequest) : Nat := if AsksUpgrade r.toRequest ∧ r.method ≠ "GET" then 405 else 400

theorem handshake_iff (supported : List String) (r : WsRequest) :
    (∀ p, handshake supported r = .switched p ↔ OpeningHandshake r ∧ p = selectProtocol (supported.map protocolOf)) := by
  intro p
  unfold handshake
  constructor
  · intro h
    split at h
    · cases h
    rename_i h1
    split at h
    · cases h
    rename_i h2
    split at h
    · cases h
    rename_i h3
    split at h
    · cases h
    rename_i h4
    split at h
    · cases h
    rename_i h5
    cases h
    exact ⟨⟨by simpa using h3, (isUpgrade_iff _).1 (by unfold Request.isUpgrade; rw [Bool.and_eq_true]; exact ⟨by simpa only [Bool.not_eq_true', Bool.not_eq_false] using h1, by simpa only [Bool.not_eq_true', Bool.not_eq_false] using h2⟩), by simpa using h4, h5⟩, rfl⟩
  · rintro ⟨⟨a, b, c, d⟩, rfl⟩
    have hu := (isUpgrade_iff _).2 b
    simp only [Request.isUpgrade, Bool.and_eq_true] at hu
    rw [hu.1, hu.2, if_neg (by decide), if_neg (by decide), if_neg (by simp [a]), if_neg (by simpa using c), if_neg d]

/-- **C78** `Handshake`: it succeeds exactly for a complete opening handshake, whatever subprotocols that offers; the reply names the
subprotocol of the first version supported, whether it was offered or not.  Every other request is refused with the status for it. -/
theorem C78_handshake (supported : List String) (r : WsRequest) :
    (∀ p, handshake supported r = .switched p ↔ OpeningHandshake r ∧ p = ((supported.map protocolOf).head?).getD "") ∧
    (¬ OpeningHandshake r → handshake supported r = .refused (refusal r)) := by
  refine ⟨fun p => ?_, fun hn => ?_⟩
  · rw [handshake_iff]
    unfold selectProtocol
    rw [List.headD_eq_head?_getD]
  · cases hh : handshake supported r with
    | switched p => exact absurd ((handshake_iff supported r p).1 hh).1 hn
    | refused c =>
      congr 1
      unfold handshake at hh
      unfold refusal
      split at hh
      · rename_i h1
        cases hh
        rw [if_neg (fun h => by have := (isUpgrade_iff _).2 h.1; unfold Request.isUpgrade at this; rw [Bool.and_eq_true] at this; rw [this.1] at h1; simp at h1)]
      split at hh
      · rename_i h1
        cases hh
        rw [if_neg (fun h => by have := (isUpgrade_iff _).2 h.1; unfold Request.isUpgrade at this; rw [Bool.and_eq_true] at this; rw [this.2] at h1; simp at h1)]
      rename_i h1 h2
      split at hh
      · rename_i h3
        cases hh
        rw [if_pos ⟨(isUpgrade_iff _).1 (by unfold Request.isUpgrade; rw [Bool.and_eq_true]; exact ⟨by simpa only [Bool.not_eq_true', Bool.not_eq_false] using h1, by simpa only [Bool.not_eq_true', Bool.not_eq_false] using h2⟩), h3⟩]
      rename_i h3
      rw [if_neg (fun h => h3 h.2)]
      repeat' split at hh
      all_goals cases hh
      all_goals rfl

/-- **C78** At the central system a charge point is registered exactly for complete opening handshakes, under the path of the
request; the reply always names `ocpp1.6`.  A request for a websocket that is incomplete is refused, with status 405 if its method
is not `GET` and 400 otherwise, and nothing is registered. -/
theorem C78_centralSystem (r : WsRequest) (id : Text) (hs : serve r.toRequest = .websocket id) :
    (OpeningHandshake r → accept r = some (.switched "ocpp1.6", some id)) ∧
    (¬ OpeningHandshake r → accept r = some (.refused (if r.method = "GET" then 400 else 405), none)) := by
  obtain ⟨h1, h2⟩ := C78_handshake ["V16"] r
  unfold accept
  rw [hs]
  constructor
  · intro ho
    have : handshake ["V16"] r = .switched "ocpp1.6" := (h1 _).2 ⟨ho, by decide⟩
    simp only [this]
  · intro ho
    have hu : AsksUpgrade r.toRequest := (((C42_serve r.toRequest).2.2.1 id).1 hs).2.1
    rw [h2 ho]
    unfold refusal
    by_cases hg : r.method = "GET"
    · rw [if_pos hg, if_neg (fun h => h.2 hg)]
    · rw [if_neg hg, if_pos ⟨hu, hg⟩]

/-- **C78** The version given to a charge point makes no difference over JSON: with every version (also with one that is none) the dial
succeeds for the same URLs and identities and registers the same id. -/
theorem C78_anyVersion (version key : String) (hk : key ≠ "") (csURL identity : Text) :
    wsDial version key csURL identity = registeredAs csURL identity := by
  unfold wsDial registeredAs dial
  cases hp : parseRest (csURL ++ '/' :: identity) with
  | none => rfl
  | some p =>
    obtain ⟨host, path⟩ := p
    simp only [Option.map_eq_map, Option.map_some]
    have hr : (wsDialRequest version key path).toRequest = dialRequest path := rfl
    unfold accept
    rw [hr]
    cases hs : serve (dialRequest path) with
    | websocket id =>
      have ho : OpeningHandshake (wsDialRequest version key path) :=
        ⟨rfl, (isUpgrade_iff _).1 (by rw [hr]; simp [Request.isUpgrade, dialRequest]), by simp [wsDialRequest], hk⟩
      have := (C78_handshake ["V16"] (wsDialRequest version key path)).1 "ocpp1.6" |>.2 ⟨ho, by decide⟩
      simp only [this]
      rfl
    | redirect t => rfl
    | landing => rfl
    | soap => rfl

/-- **C78** A client that follows RFC 6455 can use the reply exactly if it has offered `ocpp1.6`; one that offers no subprotocol, or
only `ocpp1.5`, must drop the connection, for which a charge point is registered nevertheless. -/
theorem C78_strictClient (r : WsRequest) (id : Text) (hs : serve r.toRequest = .websocket id) (ho : OpeningHandshake r) (reply : Reply) (reg : Option Text)
    (ha : accept r = some (reply, reg)) : (StrictlyTakes r reply ↔ "ocpp1.6" ∈ r.offered) ∧ reg = some id := by
  have := (C78_centralSystem r id hs).1 ho
  rw [ha] at this
  cases this
  refine ⟨?_, rfl⟩
  unfold StrictlyTakes
  constructor
  · rintro (h | h)
    · exact absurd h (by decide)
    · exact h
  · exact .inr

/-- The request of a charge point made with version 1.5, and what becomes of it. -/
example : accept (wsDialRequest "V15" "dGhlIHNhbXBsZSBub25jZQ==" "/CP1".toList) = some (.switched "ocpp1.6", some "CP1".toList) ∧
    ¬ StrictlyTakes (wsDialRequest "V15" "dGhlIHNhbXBsZSBub25jZQ==" "/CP1".toList) (.switched "ocpp1.6") := by
  have hs : serve (wsDialRequest "V15" "dGhlIHNhbXBsZSBub25jZQ==" "/CP1".toList).toRequest = .websocket "CP1".toList := by decide
  refine ⟨(C78_centralSystem _ _ hs).1 ⟨rfl, (isUpgrade_iff _).1 (by decide), by simp [wsDialRequest], by decide⟩, ?_⟩
  unfold StrictlyTakes wsDialRequest protocolOf
  decide

end Verif.Http
