import Verif.Spec.TimeServer
import Verif.Lemmas.SyncHist
import Verif.Lemmas.Network
import Verif.Props.ClockSync

/-! Lemmas about the package together with the stack and a network server. -/

namespace Uwan
open Spec

variable {E : Env}

theorem ofStack_st (ev : List Ev) : ofStack (ev.map .st) = ev := stackOf_st ev
theorem ofStack_cs (ev : List CsEv) : ofStack (ev.map .cs) = [] := stackOf_cs ev

theorem handedOver_st (ev : List Ev) : handedOver (ev.map .st) = [] := by
  unfold handedOver
  rw [List.filterMap_map]
  induction ev with
  | nil => rfl
  | cons e l ih => exact ih

theorem stackLog_append (a b : List SItem) : stackLog (a ++ b) = stackLog a ++ stackLog b := by
  unfold stackLog; rw [List.flatMap_append]

theorem stackLog_one (x : SItem) : stackLog [x] = stackCalls x := by simp [stackLog]

/-- The calls of the stack in a history are a history of the stack. -/
theorem stackLog_hist {log : List SItem} {s : Sys} (h : SHist E log s) : Hist E (stackLog log) s.stack := by
  induction h with
  | nil => exact .nil
  | @snoc log s1 s2 op r ev h hv hs ih =>
    rw [stackLog_append, stackLog_one]
    have hlen := (sync_hist h).len
    have hsend : ∀ {s : Sys} {pld : Bytes} {rnd : Nat} {s' : Sys} {e : List SEv} {pre : List SEv}, s.stack = s1.stack → pld.length ≤ 255 →
        csSend E s pld rnd = .ok (r, s', e) → ofStack pre = [] → handedOver pre = [] → ev = pre ++ e → s2.stack = s'.stack →
        Hist E (stackLog log ++ (handedOver ev).map fun x => ⟨s1.stack, .send x.1 x.2.1 x.2.2 rnd, r, ofStack ev, s2.stack⟩) s2.stack := by
      intro s pld rnd s' e pre h0 h1 h2 h3 h4 h5 h6
      unfold csSend at h2
      obtain ⟨⟨r1, st, e1⟩, hst, h2⟩ := bind_ok h2
      simp only [Except.ok.injEq, Prod.mk.injEq] at h2
      obtain ⟨rfl, rfl, rfl⟩ := h2
      rw [h0] at hst
      have k1 : handedOver ev = [(202, pld, false)] := by
        rw [h5]
        show List.filterMap _ _ = _
        rw [List.filterMap_append]
        show handedOver pre ++ (202, pld, false) :: handedOver (e1.map .st) = _
        rw [h4, handedOver_st]; rfl
      have k2 : ofStack ev = e1 := by
        rw [h5]
        show List.filterMap _ _ = _
        rw [List.filterMap_append]
        show ofStack pre ++ ofStack (e1.map .st) = _
        rw [h3, ofStack_st]; rfl
      rw [k1, k2, h6]
      exact ih.snoc (op := .send 202 pld false rnd) h1 hst
    cases op with
    | stack op =>
      obtain ⟨⟨r1, st, e1⟩, hst, hs⟩ := bind_ok hs
      simp only [Except.ok.injEq, Prod.mk.injEq] at hs
      obtain ⟨rfl, rfl, rfl⟩ := hs
      show Hist E (_ ++ [⟨_, _, _, ofStack (e1.map .st), _⟩]) st
      rw [ofStack_st]
      exact ih.snoc hv hst
    | csInit cbs =>
      simp only [sysStep, Except.ok.injEq, Prod.mk.injEq] at hs
      obtain ⟨-, rfl, rfl⟩ := hs
      simpa [stackCalls] using ih
    | csHandle err port data tail unix =>
      obtain ⟨⟨c, e⟩, hc, hs⟩ := bind_ok hs
      simp only [Except.ok.injEq, Prod.mk.injEq] at hs
      obtain ⟨-, rfl, rfl⟩ := hs
      simpa [stackCalls] using ih
    | csTimeReq ans unix rnd =>
      obtain ⟨⟨c, p⟩, hc, hs⟩ := bind_ok hs
      rw [csTimeReq_eq hlen] at hc
      split at hc
      · simp only [Except.ok.injEq, Prod.mk.injEq] at hc
        obtain ⟨rfl, rfl⟩ := hc
        obtain ⟨⟨r1, st, e1⟩, hq, hs⟩ := bind_ok hs
        simp only [Except.ok.injEq, Prod.mk.injEq] at hs
        obtain ⟨rfl, rfl, rfl⟩ := hs
        have := timeReqPld_length hlen ans unix
        exact hsend (s := { s1 with cs := { s1.cs with reqPending := true } }) (pld := timeReqPld s1.cs ans unix) (pre := [.cs .getTime]) rfl
          (by omega) hq rfl rfl rfl rfl
      · simp only [Except.ok.injEq, Prod.mk.injEq] at hc
        obtain ⟨rfl, rfl⟩ := hc
        simp only [Except.ok.injEq, Prod.mk.injEq] at hs
        obtain ⟨-, rfl, rfl⟩ := hs
        simpa [stackCalls, handedOver] using ih
    | csIsPending =>
      simp only [sysStep, Except.ok.injEq, Prod.mk.injEq] at hs
      obtain ⟨-, rfl, rfl⟩ := hs
      simpa [stackCalls] using ih
    | csSendAnsw rnd =>
      replace hs : (if s1.cs.ansPending then csSend E s1 s1.cs.ans rnd else .ok (.err .state, s1, [])) = .ok (r, s2, ev) := hs
      split at hs
      · exact hsend (pre := []) rfl (by omega) hs rfl rfl rfl rfl
      · simp only [Except.ok.injEq, Prod.mk.injEq] at hs
        obtain ⟨-, rfl, rfl⟩ := hs
        simpa [stackCalls, handedOver] using ih

/-- What waits to be sent is the answers to some packet. -/
theorem held_answers (log : List SItem) : ∃ p u l, (syncView log).held = answers p u l := by
  rcases List.eq_nil_or_concat log with rfl | ⟨l, x, rfl⟩
  · exact ⟨false, 0, [], rfl⟩
  have key : ∀ (log : List SItem) (v : SyncView), (∃ p u l, v.held = answers p u l) →
      ∃ p u l, (log.foldl SyncView.next v).held = answers p u l := by
    intro log
    induction log with
    | nil => intro v h; exact h
    | cons x log ih =>
      intro v h
      refine ih _ ?_
      unfold SyncView.next
      split
      · exact ⟨false, 0, [], rfl⟩
      · split
        · simp only
          split
          · split
            · exact ⟨_, _, _, rfl⟩
            · exact ⟨false, 0, [], rfl⟩
          · exact ⟨false, 0, [], rfl⟩
        · exact h
      · exact h
  exact key _ _ ⟨false, 0, [], rfl⟩

theorem timeRequest_skip (a b : Byte) (y : Bytes) : timeRequest (0 :: a :: b :: y) = timeRequest y := by
  match y with
  | [] => rw [timeRequest] <;> simp
  | [_] => rw [timeRequest] <;> simp
  | [_, _] => rw [timeRequest] <;> simp
  | _ :: _ :: _ :: _ => rw [timeRequest] <;> simp

/-- Answers are skipped. -/
theorem timeRequest_answers (p : Bool) (u : Nat) (l : List SyncCmd) (r : Bytes) : timeRequest (answers p u l ++ r) = timeRequest r := by
  induction l with
  | nil => rfl
  | cons x l ih =>
    show timeRequest ((x.answer p u ++ answers p u l) ++ r) = _
    rw [List.append_assoc]
    cases x with
    | version =>
      show timeRequest (0 :: 1 :: 1 :: (answers p u l ++ r)) = _
      rw [timeRequest_skip]
      exact ih
    | period q =>
      show timeRequest (2 :: _ :: _ :: _ :: _ :: _ :: (answers p u l ++ r)) = _
      rw [timeRequest]
      exact ih
    | _ => exact ih

theorem timeAnswer_request {now t tok : Nat} (ans : Bool) (ht : t < 4294967296) (hk : tok < 16) (p : Bool) (u : Nat) (l : List SyncCmd) :
    timeAnswer now (answers p u l ++ [1] ++ leBytes 4 t ++ [BitVec.ofNat 8 (tok + if ans then 16 else 0)]) =
      some ([1] ++ leBytes 4 ((now + 4294967296 - t) % 4294967296) ++ [BitVec.ofNat 8 tok]) := by
  unfold timeAnswer
  rw [List.append_assoc, List.append_assoc, timeRequest_answers]
  have e : leNat (leBytes 4 t) = t := by rw [leNat_leBytes]; omega
  show (timeRequest (1 :: _ :: _ :: _ :: _ :: [_])).map _ = _
  rw [timeRequest]
  simp only [show (1 : Byte).toNat = 1 from rfl, Nat.one_ne_zero, if_false, if_true, Option.map_some]
  have e' : leNat [BitVec.ofNat 8 t, BitVec.ofNat 8 (t / 256), BitVec.ofNat 8 (t / 256 / 256), BitVec.ofNat 8 (t / 256 / 256 / 256)] = t := e
  rw [e']
  have k : (BitVec.ofNat 8 (tok + if ans then 16 else 0)).toNat % 16 = tok := by
    rw [BitVec.toNat_ofNat]
    split <;> omega
  rw [k]

/-- Between two corrections the token stays. -/
theorem sync_keep (seg : List SItem) : ∀ (v : SyncView), (∀ x ∈ seg, (∀ c, x.op ≠ .csInit c) ∧ corrections (callsOf x.ev) = []) →
    (seg.foldl SyncView.next v).count = v.count ∧ (seg.foldl SyncView.next v).cbs = v.cbs := by
  induction seg with
  | nil => intro v _; exact ⟨rfl, rfl⟩
  | cons x seg ih =>
    intro v h
    obtain ⟨h1, h2⟩ := h x (by simp)
    obtain ⟨k1, k2⟩ := ih (v.next x) fun y hy => h y (by simp [hy])
    rw [List.foldl_cons, k1, k2]
    unfold SyncView.next
    split
    · next c hc => exact (h1 c hc).elim
    · split
      · simp [h2]
      · exact ⟨rfl, rfl⟩
    · exact ⟨rfl, rfl⟩

theorem SHist.cut {a b : List SItem} {s : Sys} (h : SHist E (a ++ b) s) : ∃ s', SHist E a s' := h.take rfl

end Uwan
