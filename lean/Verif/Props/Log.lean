import Verif.Model.Logs
import Verif.Lemmas.Log
import Verif.Props.SendErr
import Verif.Spec.Settle
import Verif.Props.Soap
/-!
# C101: what the error log tells
-/
set_option linter.unusedSimpArgs false
namespace Verif.Ocppj
open Json Codec Decode Encode Trip Conn Log

/-! ### The text of a line -/

/-- **C101** An error that is logged with words before it is printed as it is exactly if there is no percent sign in it. -/
theorem C101_wrapped (intro err : Text) (hi : '%' ∉ intro) : (Call.wrapped intro err).printed = intro ++ err ↔ '%' ∉ err := by
  rw [Call.printed, Call.format, sprintf_eq_self]
  simp [hi]

/-- **C101** An error that is logged by itself is printed as it is if there is no percent sign in it; otherwise the logger is given another
text than the error's. -/
theorem C101_plain (err : Text) : ('%' ∉ err → (Call.plain err).printed = err) ∧ ((Call.plain err).format = err ↔ '%' ∉ err) := by
  refine ⟨fun h => ?_, sprintf_eq_self err⟩
  rw [Call.printed, Call.format, sprintf_plain h, sprintf_plain h]

/-- **C101** What is printed for an error with percent signs does not tell which error it was. -/
theorem C101_ambiguous (intro : Text) (hi : '%' ∉ intro) :
    (Call.wrapped intro "5 % down".toList).printed = (Call.wrapped intro "5 %down".toList).printed ∧
    (Call.wrapped intro "5 % down".toList).printed = intro ++ "5 %!d(MISSING)own".toList := by
  have h1 : sprintf "5 % down".toList = "5 %!d(MISSING)own".toList := by decide
  have h2 : sprintf "5 %down".toList = "5 %!d(MISSING)own".toList := by decide
  simp only [Call.printed, Call.format, sprintf_append hi, h1, h2, and_self]

/-! ### The lines of a connection -/

variable {F : FloatFmt} {o₁ o₂ : Order} {a b : Side} {trA : List (Ev (ocppj F o₁ a))} {trB : List (Ev (ocppj F o₂ b))}

theorem eq_of_filterMap_nodup {α β : Type} {g : α → Option β} {l : List α} (h : (l.filterMap g).Nodup) {x y : α} {z : β}
    (hx : x ∈ l) (hy : y ∈ l) (gx : g x = some z) (gy : g y = some z) : x = y := by
  induction l with
  | nil => simp at hx
  | cons c l ih =>
    have key : ∀ w, w ∈ l → g w = some z → g c ≠ some z := by
      intro w hw gw gc
      rw [List.filterMap_cons, gc] at h
      exact (List.nodup_cons.1 h).1 (List.mem_filterMap.2 ⟨w, hw, gw⟩)
    rcases List.mem_cons.1 hx with rfl | hx'
    · rcases List.mem_cons.1 hy with rfl | hy'
      · rfl
      · exact absurd gx (key y hy' gy)
    · rcases List.mem_cons.1 hy with rfl | hy'
      · exact absurd gy (key x hx' gx)
      · refine ih ?_ hx' hy'
        rw [List.filterMap_cons] at h
        split at h
        · exact h
        · exact (List.nodup_cons.1 h).2

/-- With a peer of this library, the requests that arrive are for this side. -/
theorem Linked.takesMine (h : Linked trA trB) {k : Nat} {id : String} {r : Req} {arg : Option (Option Req)}
    (hm : Ev.take (S := ocppj F o₂ b) k id r arg ∈ trB) : (ocppj F o₂ b).mine r = true := by
  obtain ⟨sA, hA⟩ := h.left
  obtain ⟨sB, hB⟩ := h.right
  obtain ⟨l, hl⟩ := h.there
  have hp := taken_prefix hA hB h.properA.typed hl.symm
  obtain ⟨h1, h2⟩ := calls_nodup hA h.properA.typed
  have hx : ((id, r) : String × Req) ∈ takenReqs trB := List.mem_filterMap.2 ⟨_, hm, rfl⟩
  obtain ⟨i, f, x, hx0, hx1, hx2, hx3, hx4, hx5, hx6⟩ := h2 id r (hp.subset hx)
  have hs : Ev.send (S := ocppj F o₁ a) i x.id x.req ∈ trA := by simpa using (Exec.sends hA i x hx1).1
  apply mine_of_own h.ne
  rw [← hx3]
  exact h.properA.own i x.id x.req hs

/-- A request whose reply could not be sent is never answered. -/
theorem Linked.unwritten (h : Linked trA trB) {id : String} {resp : Option Resp} {err : Option String}
    (hn : Ev.answer (S := ocppj F o₂ b) id resp err none ∈ trB) :
    (returned trB).filter (fun x => x.1 = id) = [(id, resp, err)] ∧
    ∃ i q q', Ev.send (S := ocppj F o₁ a) i id q ∈ trA ∧ (handled trB).filter (fun x => x.1 = id) = [(id, some q')] ∧ Arrives F o₂ q q' ∧
      ∀ y, Ev.finish (S := ocppj F o₁ a) i y ∉ trA := by
  obtain ⟨sA, hA⟩ := h.left
  obtain ⟨sB, hB⟩ := h.right
  obtain ⟨-, ⟨run, -, h1⟩, ⟨rep, -, h2⟩, -⟩ := C24_one_reply_per_request hB
  have hmem : (id, resp, err) ∈ returned trB := by
    show _ ∈ handlerRets trB
    rw [h2]
    exact List.mem_append_left _ (List.mem_filterMap.2 ⟨_, hn, rfl⟩)
  obtain ⟨h3, i, q, f, q', h4, h5, h6, h7, h8, h9, h10⟩ := h.ret hmem
  refine ⟨h3, i, q, q', h4, h6, arrives_of h8 h9 h10 o₂, ?_⟩
  intro y hf
  obtain ⟨id', q2, f', hs', -, hor⟩ := h.originWritten i y hf
  obtain ⟨rfl, rfl⟩ : id' = id ∧ q2 = q := by
    obtain ⟨z, hz⟩ := Exec.finish_sender hA hf
    rcases Exec.sender_of_send hA i id q h4 with ⟨y, hy, g1, g2⟩ | ⟨-, g1⟩
    · rcases Exec.sender_of_send hA i id' q2 hs' with ⟨y', hy', g3, g4⟩ | ⟨-, g3⟩
      · rw [hy] at hy'; cases hy'; exact ⟨g3.symm.trans g1, g4.symm.trans g2⟩
      · subst g3; simp at hz
    · subst g1; simp at hz
  rcases hor with ⟨k, c, hr, -⟩ | ⟨resp', err', -, -, hw⟩
  · have := h.refused hr
    rw [h6] at this; cases this
  · -- two replies to one request
    have hnd : ((answers trB).map Prod.fst).Nodup := by
      have : ((handlerRets trB).map Prod.fst).Nodup := by
        have g := h.calls.1
        rw [show (handled trB).map Prod.fst = _ from h1, List.append_assoc, List.nodup_append] at g
        exact g.1
      rw [h2, List.map_append, List.nodup_append] at this
      exact this.1
    have hnd' : (trB.filterMap fun e => (match e with | .answer id _ _ _ => some id | _ => none : Option String)).Nodup := by
      have e : (answers trB).map Prod.fst = trB.filterMap fun e => (match e with | .answer id _ _ _ => some id | _ => none : Option String) := by
        rw [answers, List.map_filterMap]
        congr 1
        funext e
        cases e <;> rfl
      rw [← e]; exact hnd
    have := eq_of_filterMap_nodup hnd' hn hw (z := id') rfl rfl
    cases this

/-- With two ends of this library: the loop of a connection logs an error exactly when the reply to a request cannot be sent
(and does not panic). -/
theorem Linked.logs (h : Linked trA trB) {e : Ev (ocppj F o₂ b)} (he : e ∈ trB) :
    (∃ c, ConnLogs b e c) ↔ ∃ id resp err, e = .answer (S := ocppj F o₂ b) id resp err none ∧ (encReply F id resp err).isPanic = false := by
  constructor
  · rintro ⟨c, hc⟩
    cases hc with
    | wrong hm => rw [h.takesMine he] at hm; cases hm
    | encode t hm => exact ⟨_, _, _, rfl, by rw [show encReply F _ _ _ = _ from hm]; rfl⟩
    | write t hm => exact ⟨_, _, _, rfl, by rw [show encReply F _ _ _ = _ from hm]; rfl⟩
  · rintro ⟨id, resp, err, rfl, hp⟩
    cases hm : encReply F id resp err with
    | ok f => exact ⟨_, .write [] hm⟩
    | err m => exact ⟨_, .encode [] hm⟩
    | panic m => rw [hm] at hp; cases hp

variable {tr : List (Ev (ocppj F o₁ .cp) ⊕ Ev (ocppj F o₂ .cs))} {x : Sys F o₁ o₂}

/-- **C101** A charge point and a central system, in every schedule: in the log for the connection, at either end, there is a line exactly for
each reply that could not be sent (unless the encoder panicked). -/
theorem C101_lines (h : Sys.Exec tr x) (hp : Proper (atCp tr)) (hs : Proper (atCs tr)) :
    (∀ e ∈ atCs tr, (∃ c, ConnLogs .cs e c) ↔
      ∃ id resp err, e = .answer (S := ocppj F o₂ .cs) id resp err none ∧ (encReply F id resp err).isPanic = false) ∧
    (∀ e ∈ atCp tr, (∃ c, ConnLogs .cp e c) ↔
      ∃ id resp err, e = .answer (S := ocppj F o₁ .cp) id resp err none ∧ (encReply F id resp err).isPanic = false) :=
  ⟨fun _ he => (h.linked hp hs).1.logs he, fun _ he => (h.linked hp hs).2.logs he⟩

/-- **C101** And each line stands for a request of the other end that was given to the handler once, that the handler answered, and whose
`Send` never returns an answer. -/
theorem C101_unanswered (h : Sys.Exec tr x) (hp : Proper (atCp tr)) (hs : Proper (atCs tr)) (c : Call) :
    (∀ e ∈ atCs tr, ConnLogs .cs e c → ∃ id resp err i q q', Ev.send (S := ocppj F o₁ .cp) i id q ∈ atCp tr ∧
      (handled (atCs tr)).filter (fun x => x.1 = id) = [(id, some q')] ∧ Arrives F o₂ q q' ∧
      (returned (atCs tr)).filter (fun x => x.1 = id) = [(id, resp, err)] ∧ ∀ y, Ev.finish (S := ocppj F o₁ .cp) i y ∉ atCp tr) ∧
    (∀ e ∈ atCp tr, ConnLogs .cp e c → ∃ id resp err i q q', Ev.send (S := ocppj F o₂ .cs) i id q ∈ atCs tr ∧
      (handled (atCp tr)).filter (fun x => x.1 = id) = [(id, some q')] ∧ Arrives F o₁ q q' ∧
      (returned (atCp tr)).filter (fun x => x.1 = id) = [(id, resp, err)] ∧ ∀ y, Ev.finish (S := ocppj F o₂ .cs) i y ∉ atCs tr) := by
  obtain ⟨l1, l2⟩ := h.linked hp hs
  constructor
  · intro e he hc
    obtain ⟨id, resp, err, rfl, -⟩ := (l1.logs he).1 ⟨c, hc⟩
    obtain ⟨g1, i, q, q', g2, g3, g4, g5⟩ := l1.unwritten he
    exact ⟨id, resp, err, i, q, q', g2, g3, g4, g1, g5⟩
  · intro e he hc
    obtain ⟨id, resp, err, rfl, -⟩ := (l2.logs he).1 ⟨c, hc⟩
    obtain ⟨g1, i, q, q', g2, g3, g4, g5⟩ := l2.unwritten he
    exact ⟨id, resp, err, i, q, q', g2, g3, g4, g1, g5⟩

/-- **C101** It happens: for every charge point request other than DataTransfer that can be encoded and has ordinary values, and every text,
the reply may fail with this text, and the log has it. -/
theorem C101_possible (F : FloatFmt) (o₁ o₂ : Order) (id e : String) (t : Text) (q : Req) (hcp : q.type.isChargePoint = true)
    (hs : q.type.action ≠ "DataTransfer".toList) (hq : HasTy q.type.ty q.val) (ho : Ordinary q.val) (hm : ∃ t, marshal F q.type.ty q.val = .ok t) :
    ∃ tr : List (Ev (ocppj F o₁ .cp) ⊕ Ev (ocppj F o₂ .cs)), ∃ x y, Sys.Exec tr x ∧ Proper (atCp tr) ∧ Proper (atCs tr) ∧
      y ∈ atCs tr ∧ ConnLogs .cs y (.plain ("on sending message: ".toList ++ t)) := by
  obtain ⟨t', hm⟩ := hm
  obtain ⟨f, p, v, h1, h2, h3, -, -⟩ := C14_request F o₂ id q hs hq ho.1 ho.2 t' hm
  obtain ⟨g, h4, h5⟩ := C10_handlerError F id none e
  have o : ∀ {S : Sem} {e : Ev S} {l : List S.Frame}, (∀ k f, e ≠ .read k f) → Consumes e l l := fun h => .other h
  have r0 := Sys.Exec.nil (F := F) (o₁ := o₁) (o₂ := o₂)
  have r1 := r0.snoc (.cs (Step.spawn rfl rfl) (o (by intros; simp)))
  have r2 := r1.snoc (.cp (Step.spawn rfl rfl) (o (by intros; simp)))
  have r3 := r2.snoc (.cp (Step.send (id := id) rfl (by simp [Sys.init, Conn.init]) h1) (o (by intros; simp)))
  have r4 := r3.snoc (.cp (Step.regSent (i := 0) rfl rfl rfl) (o (by intros; simp)))
  have r5 := r4.snoc (.cp (Step.regChan (i := 0) rfl rfl rfl) (o (by intros; simp)))
  have r6 := r5.snoc (.cp (Step.writeOk (i := 0) rfl rfl rfl rfl rfl) (o (by intros; simp)))
  have r7 := r6.snoc (.cs (Step.read (k := 0) (f := f) rfl rfl) .read)
  have r8 := r7.snoc (.cs (Step.dispatch (k := 0) (p := .toLoop id (⟨q.type, v⟩ : Req)) rfl rfl (afterRead_call o₂ _ h2 h3)) (o (by intros; simp)))
  have hat : afterTake (S := ocppj F o₂ .cs) .cs id (⟨q.type, v⟩ : Req) = .handling id (some (⟨q.type, v⟩ : Req)) := if_pos hcp
  have st9 := fun s h1 h2 h3 => Step.take (S := ocppj F o₂ .cs) (side := .cs) (s := s) (k := 0) (id := id) (r := (⟨q.type, v⟩ : Req)) h1 h2 h3
  rw [hat] at st9
  have r9 := r8.snoc (.cs (st9 _ rfl ⟨_, rfl⟩ rfl) (o (by intros; simp)))
  have r10 := r9.snoc (.cs (Step.handlerRet (S := ocppj F o₂ .cs) (r := some (⟨q.type, v⟩ : Req)) none (some e) rfl rfl) (o (by intros; simp)))
  have hnp : ((ocppj F o₂ .cs).encReply id none (some e)).isPanic = false := by
    rw [show (ocppj F o₂ .cs).encReply id none (some e) = _ from h4]; rfl
  have r11 := r10.snoc (.cs (Step.answerFail rfl rfl hnp) (o (by intros; simp)))
  refine ⟨_, _, Ev.answer (S := ocppj F o₂ .cs) id none (some e) none, r11, ⟨⟨?_, ?_⟩, ?_⟩, ⟨⟨?_, ?_⟩, ?_⟩, ?_, .write t h4⟩
  · intro i id' r hm
    simp [atCp] at hm
    obtain ⟨-, -, rfl⟩ := hm
    exact hq
  · intro id' r e hm
    simp [atCp] at hm
  · intro i id' r hm
    simp [atCp] at hm
    obtain ⟨-, -, rfl⟩ := hm
    simp [hcp]
  · intro i id' r hm
    simp [atCs] at hm
  · intro id' r e hm
    simp [atCs] at hm
  · intro i id' r hm
    simp [atCs] at hm
  · simp [atCs]

end Verif.Ocppj

namespace Verif.Soap
open Xml Ocppj Log

/-! ### The lines of a SOAP server -/

theorem serveLogs_eq (G : FloatText) (url msgId sender identity : Text) (hu : url ≠ []) (atCs : Bool) (h : Req → Text → HandlerResult)
    (r : Req) (hb : bound (.req r.type) = true) (hv : HasTy r.type.ty r.val) (hp : r.val.TimesAll GoTime.Plain)
    (hdir : r.type.isChargePoint = atCs) {res : HandlerResult} (hret : h ⟨r.type, soapTrip r.type.ty r.val⟩ (cleanText identity) = res) :
    ∃ body, posted G url msgId sender identity r = .ok body ∧ serveLogs G atCs h body =
      (res.err.toList.map fun e => .wrapped "couldn't handle request: ".toList e) ++
      (match encodeReply G res.resp res.err with
        | .err m => [.wrapped "Couldn't handle SOAP request: ".toList ("couldn't encode response: ".toList ++ m.toList)]
        | _ => []) := by
  obtain ⟨body, h1, h2⟩ := C48_request G ⟨url, '/' :: r.type.action, msgId, sender, identity⟩ r hb hv hp
  refine ⟨body, by rw [posted, if_neg hu]; exact h1, ?_⟩
  have hd : (direct atCs h ⟨r.type, soapTrip r.type.ty r.val⟩ (cleanText identity)).2 = res := by
    rw [direct, if_pos hdir]; exact hret
  rw [← hd, serveLogs, h2]
  rfl

/-- **C101** Over SOAP the text of a handler's error does not get to the caller, whose `Send` returns an error with an empty text (C52), but it
is in the error log of the server. -/
theorem C101_soapError (G : FloatText) (url msgId sender identity : Text) (hu : url ≠ []) (atCs : Bool) (h : Req → Text → HandlerResult)
    (r : Req) (hb : bound (.req r.type) = true) (hv : HasTy r.type.ty r.val) (hp : r.val.TimesAll GoTime.Plain)
    (hdir : r.type.isChargePoint = atCs) (e : Text) (hret : h ⟨r.type, soapTrip r.type.ty r.val⟩ (cleanText identity) = ⟨none, some e⟩) :
    ∃ body, posted G url msgId sender identity r = .ok body ∧
      serveLogs G atCs h body = [.wrapped "couldn't handle request: ".toList e] ∧
      (exchange G url msgId sender identity atCs h r).2 = .err [] := by
  obtain ⟨body, h1, h2⟩ := serveLogs_eq G url msgId sender identity hu atCs h r hb hv hp hdir hret
  obtain ⟨t, h3, h4⟩ := C52_error G url msgId sender identity hu atCs h r hb hv hp hdir none e hret (by simp)
  rw [h4 (by simp)] at h3
  exact ⟨body, h1, by rw [h2]; rfl, h3⟩

/-- **C101** If the caller's `Send` returns a response, nothing is logged at the server. -/
theorem C101_soapSilent (G : FloatText) (url msgId sender identity : Text) (hu : url ≠ []) (atCs : Bool) (h : Req → Text → HandlerResult)
    (r : Req) (hb : bound (.req r.type) = true) (hv : HasTy r.type.ty r.val) (hp : r.val.TimesAll GoTime.Plain)
    (hdir : r.type.isChargePoint = atCs)
    (hres : ∀ x, (h ⟨r.type, soapTrip r.type.ty r.val⟩ (cleanText identity)).resp = some x → HasTy x.type.ty x.val ∧ x.val.TimesAll GoTime.Plain)
    (y : Resp) (hy : (exchange G url msgId sender identity atCs h r).2 = .ok y) :
    ∃ body, posted G url msgId sender identity r = .ok body ∧ serveLogs G atCs h body = [] := by
  obtain ⟨body, h1, h2⟩ := serveLogs_eq G url msgId sender identity hu atCs h r hb hv hp hdir rfl
  refine ⟨body, h1, ?_⟩
  rw [h2]
  generalize hret : h ⟨r.type, soapTrip r.type.ty r.val⟩ (cleanText identity) = res at hres ⊢
  obtain ⟨resp, err⟩ := res
  cases err with
  | some e =>
    obtain ⟨t, h3, -⟩ := C52_error G url msgId sender identity hu atCs h r hb hv hp hdir resp e hret hres
    rw [h3] at hy; cases hy
  | none =>
    rw [exchange_eq G url msgId sender identity hu atCs h r hb hv hp] at hy
    simp only [direct] at hy
    rw [if_pos hdir] at hy
    simp only [hret] at hy
    dsimp only
    cases he : encodeReply G resp none with
    | ok b => rfl
    | panic m => rfl
    | err m =>
      rw [he] at hy
      have : receive r (answerOf (.err m)) = .err "XML syntax error".toList := by
        rw [answerOf, receive, if_neg (by simp)]
        rw [decode_nil]
      rw [this] at hy; cases hy

/-- A handler of the central system that refuses an Authorize request. -/
example (G : FloatText) : ∃ body, posted G "http://cs:8080".toList [] [] "CP1".toList tagReq = .ok body ∧
    serveLogs G true (fun _ _ => ⟨none, some "unknown tag".toList⟩) body =
      [.wrapped "couldn't handle request: ".toList "unknown tag".toList] := by
  obtain ⟨b, h1, h2, -⟩ := C101_soapError G "http://cs:8080".toList [] [] "CP1".toList (by decide) true
    (fun _ _ => ⟨none, some "unknown tag".toList⟩) tagReq tagReq_ok.1 tagReq_ok.2.1 tagReq_ok.2.2 rfl "unknown tag".toList rfl
  exact ⟨b, h1, h2⟩

end Verif.Soap
