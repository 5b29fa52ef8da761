import Verif.Lemmas.SyncHist
import Verif.Tests.ClockSyncTests

/-!
# Clock synchronisation package (C63-C69)
-/

namespace Uwan
open Spec

variable {E : Env} {log : List SItem}

/-- A device with the package set up and two answers waiting. -/
def csOps : List SOp :=
  [.stack (.init .eu868), .stack (.setSession 0x01020304 0 0 Tests.appKey Tests.appKey), .csInit (some ⟨true⟩),
   .csHandle .no 202 Tests.csPld [] 1722419302]

theorem csFine : SDemo.fine csOps = true := by decide +kernel

/-! ### C63 -/

/-- C63: with registered callbacks a time request goes out on port 202, unconfirmed, as the waiting answers followed by AppTimeReq with the
GPS time, the token (the number of corrections so far, modulo 16) and the flag; the result is that of `uwan_send_frame`. Without
callbacks `UWAN_ERR_STATE` is returned. -/
theorem C63_time_request {s : Sys} (h : SHist E log s) (ans : Bool) (unix : U32) (rnd : Nat) :
    if (syncView log).cbs = none then sysStep E s (.csTimeReq ans unix rnd) = .ok (.err .state, s, [])
    else
      let pld := (syncView log).held ++ [1] ++ leBytes 4 (gpsTime unix.toNat) ++ [BitVec.ofNat 8 ((syncView log).count % 16 + if ans then 16 else 0)]
      ∃ r s' ev, step E s.stack (.send 202 pld false rnd) = .ok (r, s'.stack, ev) ∧
        sysStep E s (.csTimeReq ans unix rnd) = .ok (r, s', .cs .getTime :: .cs (.sendFrame 202 pld false) :: ev.map .st) := by
  have hv := sync_hist h
  have hsys : sysStep E s (.csTimeReq ans unix rnd) = (csTimeReq s.cs ans unix).bind fun x =>
      match x.2 with
      | none => .ok (.err .state, s, [])
      | some pld => (csSend E { s with cs := x.1 } pld rnd).bind fun y => .ok (y.1, y.2.1, .cs .getTime :: y.2.2) := rfl
  rw [hsys, csTimeReq_eq hv.len]
  have hcbs : (syncView log).cbs = none ↔ s.cs.cbs.isSome = false := by
    rw [hv.cbs]
    cases s.cs.cbs <;> simp
  by_cases hc : (syncView log).cbs = none
  · rw [if_pos hc, hcbs.mp hc]
    rfl
  · rw [if_neg hc]
    have hsome : s.cs.cbs.isSome = true := by
      cases hb : s.cs.cbs.isSome with
      | true => rfl
      | false => exact (hc (hcbs.mpr hb)).elim
    rw [hsome, if_pos rfl]
    have hpld : timeReqPld s.cs ans unix =
        (syncView log).held ++ [1] ++ leBytes 4 (gpsTime unix.toNat) ++ [BitVec.ofNat 8 ((syncView log).count % 16 + if ans then 16 else 0)] := by
      unfold timeReqPld
      rw [gpsBytes_eq, ← hv.token]
      have h1 : (if s.cs.ansPending = true then s.cs.ans else []) = (syncView log).held := by
        split
        · next hp => exact hv.ans hp
        · next hp =>
          rw [hv.pending] at hp
          simpa using hp
      have h2 : s.cs.token ||| (if ans then 0x10 else 0) = BitVec.ofNat 8 (s.cs.token.toNat + if ans then 16 else 0) := by
        have hlt : s.cs.token.toNat < 16 := by rw [hv.token]; exact Nat.mod_lt _ (Nat.succ_pos 15)
        apply BitVec.eq_of_toNat_eq
        cases ans with
        | false =>
          simp
        | true =>
          rw [BitVec.toNat_or, BitVec.toNat_ofNat]
          show s.cs.token.toNat ||| 2 ^ 4 * 1 = (s.cs.token.toNat + 16) % 2 ^ 8
          rw [Nat.or_comm, ← Nat.two_pow_add_eq_or_of_lt hlt, Nat.mod_eq_of_lt (by omega)]
          omega
      rw [h1, h2]
    obtain ⟨r, st, sev, h1, h2⟩ := csSend_ok h { s.cs with reqPending := true } (pld := timeReqPld s.cs ans unix)
      (Nat.le_trans (timeReqPld_length hv.len ans unix) (by decide)) rnd
    rw [hpld] at h1 h2
    refine ⟨r, ⟨st, { s.cs with reqPending := true }⟩, sev, h1, ?_⟩
    show (csSend E ⟨s.stack, { s.cs with reqPending := true }⟩ (timeReqPld s.cs ans unix) rnd).bind _ = _
    rw [hpld, h2]
    rfl

example : ∃ log s, SHist Tests.xorEnv log s ∧ (syncView log).cbs = some true ∧ (syncView log).held = [0, 1, 1, 2, 0, 0xf8, 0xca, 0xd4, 0x53] ∧
    (syncView log).count = 1 :=
  ⟨_, _, SDemo.hist csFine, by decide +kernel, by decide +kernel, by decide +kernel⟩

/-! ### C64 -/

/-- A correction found among the recorded calls. -/
theorem mem_corrections {ev : List SEv} {v : BitVec 32} (h : .cs (.correction v) ∈ ev) : v.toInt ∈ corrections (callsOf ev) := by
  unfold corrections callsOf
  rw [List.mem_filterMap]
  exact ⟨.correct v.toInt, List.mem_filterMap.mpr ⟨_, h, rfl⟩, rfl⟩

theorem corrections_mem {sup : Bool} {sec : Nat → Nat} {tok : Nat} {l : List SyncCmd} {v : Int} (h : v ∈ corrections (calls sup sec tok l)) :
    .timeAns v tok ∈ l := by
  obtain ⟨x, hx, hv⟩ := List.mem_filterMap.mp h
  obtain ⟨c, hc, hx⟩ := List.mem_flatMap.mp hx
  cases c <;> simp only [SyncCmd.calls] at hx <;> (try split at hx) <;> simp at hx <;> subst hx <;> simp at hv
  subst hv
  next hk => rw [← hk]; exact hc

def isTime : SyncCmd → Bool
  | .timeAns .. => true
  | _ => false

theorem corrections_le (sup : Bool) (sec : Nat → Nat) (tok : Nat) (l : List SyncCmd) :
    (corrections (calls sup sec tok l)).length ≤ l.countP isTime := by
  induction l with
  | nil => simp [calls, corrections]
  | cons x l ih =>
    have : calls sup sec tok (x :: l) = x.calls sup sec tok ++ calls sup sec tok l := by simp [calls]
    rw [this, show corrections (x.calls sup sec tok ++ calls sup sec tok l) = corrections (x.calls sup sec tok) ++ corrections (calls sup sec tok l) from List.filterMap_append,
      List.length_append, List.countP_cons]
    have hx : (corrections (x.calls sup sec tok)).length ≤ if isTime x = true then 1 else 0 := by
      cases x <;> simp only [SyncCmd.calls] <;> (try split) <;> simp [corrections, isTime]
    omega

/-- What a step of the package does with a received packet. -/
theorem handle_step {s s' : Sys} {err : Err} {port : Byte} {data tail : Bytes} {unix : U32} {r : Ret} {ev : List SEv} (h : SHist E log s)
    (hl : data.length ≤ 255) (hs : sysStep E s (.csHandle err port data tail unix) = .ok (r, s', ev)) :
    (err ≠ .no ∧ s' = s ∧ ev = []) ∨ (err = .no ∧ ∃ cb : CsCbs, (s.cs.cbs = none ∨ s.cs.cbs = some cb) ∧ ∃ e out, ev = e.map .cs ∧
      CsRes cb unix ((syncView log).count % 16) (found s.cs.cbs port data) s.cs [] s'.cs out e ∧
      (s'.cs.ansPending = true → s'.cs.ans = out) ∧
      (CsEv.ubShift ∈ e → ∃ v t, .timeAns v t ∈ found s.cs.cbs port data ∧ v < 0)) := by
  have hv := sync_hist h
  obtain ⟨⟨c, e⟩, hc, hs⟩ := bind_ok hs
  simp only [Except.ok.injEq, Prod.mk.injEq] at hs
  obtain ⟨-, rfl, rfl⟩ := hs
  by_cases he : err = .no
  · subst he
    obtain ⟨cb, hcb, out, hR, h1, h2, h3, h4⟩ := csHandle_res hl (by rw [hv.token]; exact Nat.mod_lt _ (Nat.succ_pos 15)) hv.len hc
    rw [hv.token] at hR
    exact .inr ⟨rfl, cb, hcb, e, out, rfl, hR, h2, h4⟩
  · unfold csHandle at hc
    rw [if_pos he] at hc
    simp only [Except.ok.injEq, Prod.mk.injEq] at hc
    obtain ⟨rfl, rfl⟩ := hc
    exact .inl ⟨he, rfl, rfl⟩

theorem found_sub {cbs : Option CsCbs} {port : Byte} {data : Bytes} {x : SyncCmd} (h : x ∈ found cbs port data) :
    port = 202 ∧ cbs ≠ none ∧ x ∈ readSync [] data := by
  unfold found at h
  split at h
  · split at h
    · next hp => exact ⟨hp, by simp, h⟩
    · cases h
  · cases h

theorem found_once {cbs : Option CsCbs} {port : Byte} {data : Bytes} (P : SyncCmd → Bool) (h : (readSync [] data).countP P ≤ 1) :
    (found cbs port data).countP P ≤ 1 := by
  unfold found
  split
  · split
    · exact h
    · simp
  · simp

/-- Only received packets lead to calls of the application. -/
theorem calls_only {s s' : Sys} {op : SOp} {r : Ret} {ev : List SEv} (hs : sysStep E s op = .ok (r, s', ev)) (hc : callsOf ev ≠ []) :
    ∃ err port data tail unix, op = .csHandle err port data tail unix := by
  have hsend : ∀ {s : Sys} {pld : Bytes} {rnd : Nat} {r : Ret} {s' : Sys} {ev : List SEv}, csSend E s pld rnd = .ok (r, s', ev) → callsOf ev = [] := by
    intro s pld rnd r s' ev h
    unfold csSend at h
    obtain ⟨⟨r1, st, e1⟩, -, h⟩ := bind_ok h
    simp only [Except.ok.injEq, Prod.mk.injEq] at h
    rw [← h.2.2]
    exact callsOf_st e1
  cases op with
  | csHandle err port data tail unix => exact ⟨_, _, _, _, _, rfl⟩
  | stack op =>
    obtain ⟨⟨r1, st, e1⟩, -, hs⟩ := bind_ok hs
    simp only [Except.ok.injEq, Prod.mk.injEq] at hs
    rw [← hs.2.2] at hc
    exact (hc (callsOf_st e1)).elim
  | csInit cbs =>
    simp only [sysStep, Except.ok.injEq, Prod.mk.injEq] at hs
    rw [← hs.2.2] at hc
    exact (hc rfl).elim
  | csTimeReq ans unix rnd =>
    obtain ⟨⟨c, p⟩, -, hs⟩ := bind_ok hs
    cases p with
    | none =>
      simp only [Except.ok.injEq, Prod.mk.injEq] at hs
      rw [← hs.2.2] at hc
      exact (hc rfl).elim
    | some pld =>
      obtain ⟨⟨r1, st, e1⟩, hq, hs⟩ := bind_ok hs
      simp only [Except.ok.injEq, Prod.mk.injEq] at hs
      rw [← hs.2.2] at hc
      exact (hc (show callsOf e1 = [] from hsend hq)).elim
  | csIsPending =>
    simp only [sysStep, Except.ok.injEq, Prod.mk.injEq] at hs
    rw [← hs.2.2] at hc
    exact (hc rfl).elim
  | csSendAnsw rnd =>
    replace hs : (if s.cs.ansPending then csSend E s s.cs.ans rnd else .ok (.err .state, s, [])) = .ok (r, s', ev) := hs
    split at hs
    · exact (hc (hsend hs)).elim
    · simp only [Except.ok.injEq, Prod.mk.injEq] at hs
      rw [← hs.2.2] at hc
      exact (hc rfl).elim

/-- C64: a correction is made only for a packet without error on port 202 that contains an AppTimeAns with the current token (the number of
corrections so far, modulo 16) and this value as a signed number; and it is the only one made for that packet. -/
theorem C64_applied {it : SItem} {s : Sys} {v : BitVec 32} (h : SHist E (log ++ [it]) s) (hc : .cs (.correction v) ∈ it.ev) :
    ∃ pre a b c d t rest tail unix, it.op = .csHandle .no 202 (pre ++ [1, a, b, c, d, t] ++ rest) tail unix ∧ (syncView log).cbs ≠ none ∧
      v.toInt = signed32 (leNat [a, b, c, d]) ∧ t.toNat % 16 = (syncView log).count % 16 ∧ corrections (callsOf it.ev) = [v.toInt] := by
  obtain ⟨s0, h0, -, -, hv, hs⟩ := h.last
  have hm := mem_corrections hc
  obtain ⟨err, port, data, tail, unix, hop⟩ := calls_only hs (by intro h0; rw [h0] at hm; cases hm)
  rw [hop] at hv hs
  rcases handle_step h0 hv hs with ⟨-, -, he⟩ | ⟨rfl, cb, -, e, out, he, hR, -, -⟩
  · rw [he] at hc; cases hc
  · rw [he, callsOf_cs, hR.corr] at hm ⊢
    have hmem := corrections_mem hm
    obtain ⟨rfl, hcbs, hread⟩ := found_sub hmem
    obtain ⟨pre, a, b, c, d, t, rest, rfl, hval, htok⟩ := read_time _ _ hread
    refine ⟨pre, a, b, c, d, t, rest, tail, unix, hop, ?_, hval, htok.symm, ?_⟩
    · rw [(sync_hist h0).cbs]
      simpa using hcbs
    · have h1 := found_once (cbs := s0.cs.cbs) (port := 202) _ (read_once isTime 1 (by simp [isTime]) (by simp) (by simp [isTime]) (by simp [isTime]) (by simp [isTime]) rfl rfl []
        (pre ++ [1, a, b, c, d, t] ++ rest))
      have h2 := corrections_le cb.period codeSec ((syncView log).count % 16) (found s0.cs.cbs 202 (pre ++ [1, a, b, c, d, t] ++ rest))
      have hone : ∀ l : List Int, v.toInt ∈ l → l.length ≤ 1 → l = [v.toInt] := by
        intro l hl hlen
        match l, hl, hlen with
        | [x], hl, _ => rw [List.mem_singleton.mp hl]
        | x :: y :: l, _, hlen => simp at hlen
      exact hone _ hm (Nat.le_trans h2 h1)

/-- C64: an AppTimeAns with the current token at the start of a packet is applied, with its value, and the token advances. -/
theorem C64_accepted {s : Sys} (h : SHist E log s) {a b c d t : Byte} {rest tail : Bytes} {unix : U32} {r : Ret} {s' : Sys} {ev : List SEv} (hl : rest.length ≤ 249)
    (hcb : (syncView log).cbs ≠ none) (ht : t.toNat % 16 = (syncView log).count % 16)
    (hs : sysStep E s (.csHandle .no 202 ([1, a, b, c, d, t] ++ rest) tail unix) = .ok (r, s', ev)) :
    corrections (callsOf ev) = [signed32 (leNat [a, b, c, d])] ∧ s'.cs.token.toNat = ((syncView log).count + 1) % 16 := by
  have hlen : ([1, a, b, c, d, t] ++ rest).length ≤ 255 := by simp; omega
  rcases handle_step h hlen hs with ⟨h1, -⟩ | ⟨-, cb, hcb', e, out, rfl, hR, -, -⟩
  · exact (h1 rfl).elim
  have hv := sync_hist h
  have hsome : s.cs.cbs = some cb := by
    rcases hcb' with h1 | h1
    · rw [hv.cbs, h1] at hcb; exact (hcb rfl).elim
    · exact h1
  have hf : found s.cs.cbs 202 ([1, a, b, c, d, t] ++ rest) = .timeAns (signed32 (leNat [a, b, c, d])) (t.toNat % 16) :: readSync [1] rest := by
    rw [hsome]; rfl
  have hcr : corrections (callsOf (e.map .cs)) = [signed32 (leNat [a, b, c, d])] := by
    rw [callsOf_cs, hR.corr, hf]
    have h1 : calls cb.period codeSec ((syncView log).count % 16) (.timeAns (signed32 (leNat [a, b, c, d])) (t.toNat % 16) :: readSync [1] rest) =
        .correct (signed32 (leNat [a, b, c, d])) :: calls cb.period codeSec ((syncView log).count % 16) (readSync [1] rest) := by
      simp only [calls, List.flatMap_cons, SyncCmd.calls, if_pos ht, List.singleton_append]
    rw [h1]
    show _ :: corrections (calls cb.period codeSec ((syncView log).count % 16) (readSync [1] rest)) = _
    have h2 := corrections_le cb.period codeSec ((syncView log).count % 16) (readSync [1] rest)
    have h3 := read_once isTime 1 (by simp [isTime]) (by simp) (by simp [isTime]) (by simp [isTime]) (by simp [isTime]) rfl rfl [1] rest
    have h4 : (corrections (calls cb.period codeSec ((syncView log).count % 16) (readSync [1] rest))).length ≤ 0 := Nat.le_trans h2 h3
    rw [List.length_eq_zero_iff.mp (Nat.le_zero.mp h4)]
  refine ⟨hcr, ?_⟩
  rw [callsOf_cs] at hcr
  rw [hR.token, hcr, hv.token]
  simp

/-- The corrections of a stretch of history without `uwan_clock_sync_init` add up. -/
theorem count_seg (a b : List SItem) (hb : ∀ it ∈ b, ∀ c, it.op ≠ .csInit c) :
    (syncView (a ++ b)).count ≤ (syncView a).count + (corrections (callsOf (sysTrace b))).length ∧ (syncView a).count ≤ (syncView (a ++ b)).count := by
  have hap : ∀ x y : List SEv, (corrections (callsOf (x ++ y))).length = (corrections (callsOf x)).length + (corrections (callsOf y)).length := by
    intro x y
    rw [show callsOf (x ++ y) = callsOf x ++ callsOf y from List.filterMap_append,
      show corrections (callsOf x ++ callsOf y) = corrections (callsOf x) ++ corrections (callsOf y) from List.filterMap_append, List.length_append]
  induction b generalizing a with
  | nil => simp [sysTrace, callsOf, corrections]
  | cons it b ih =>
    have h1 := ih (a ++ [it]) fun x hx => hb x (List.mem_cons_of_mem _ hx)
    rw [List.append_assoc, List.singleton_append] at h1
    have h2 : (syncView (a ++ [it])).count ≤ (syncView a).count + (corrections (callsOf it.ev)).length ∧ (syncView a).count ≤ (syncView (a ++ [it])).count := by
      rw [syncView_snoc]
      have h3 := hb it List.mem_cons_self
      unfold SyncView.next
      split
      · next c hc => exact (h3 c hc).elim
      · split
        · exact ⟨Nat.le_refl _, Nat.le_add_right _ _⟩
        · exact ⟨Nat.le_add_right _ _, Nat.le_refl _⟩
      · exact ⟨Nat.le_add_right _ _, Nat.le_refl _⟩
    have h4 := hap it.ev (sysTrace b)
    have h5 : sysTrace (it :: b) = it.ev ++ sysTrace b := rfl
    rw [h5, h4]
    omega

/-- C64: a packet that led to a correction leads to none when it is received again, unless 15 further corrections or a new
`uwan_clock_sync_init` lie between. -/
theorem C64_replay {pre mid : List SItem} {it1 it2 : SItem} {s : Sys} {data t1 t2 : Bytes} {u1 u2 : U32} (h : SHist E (pre ++ [it1] ++ mid ++ [it2]) s)
    (h1 : it1.op = .csHandle .no 202 data t1 u1) (h2 : it2.op = .csHandle .no 202 data t2 u2) (hc : corrections (callsOf it1.ev) ≠ [])
    (hm : ∀ it ∈ mid, ∀ c, it.op ≠ .csInit c) (hm' : (corrections (callsOf (sysTrace mid))).length < 15) : corrections (callsOf it2.ev) = [] := by
  apply Decidable.byContradiction
  intro hc2
  have tok : ∀ {pre : List SItem} {it : SItem} {s : Sys} {t : Bytes} {u : U32}, SHist E (pre ++ [it]) s → it.op = .csHandle .no 202 data t u → corrections (callsOf it.ev) ≠ [] →
      ∃ v, .timeAns v ((syncView pre).count % 16) ∈ readSync [] data := by
    intro pre it s t u h hop hc
    obtain ⟨s0, h0, -, -, hv, hs⟩ := h.last
    rw [hop] at hv hs
    rcases handle_step h0 hv hs with ⟨-, -, he⟩ | ⟨-, cb, -, e, out, he, hR, -, -⟩
    · rw [he] at hc; exact (hc rfl).elim
    · rw [he, callsOf_cs, hR.corr] at hc
      obtain ⟨v, hv⟩ := List.exists_mem_of_ne_nil _ hc
      exact ⟨v, (found_sub (corrections_mem hv)).2.2⟩
  obtain ⟨s1, hh1⟩ := h.take (a := pre ++ [it1]) (b := mid ++ [it2]) (by simp)
  obtain ⟨v1, m1⟩ := tok hh1 h1 hc
  obtain ⟨v2, m2⟩ := tok h h2 hc2
  have hcnt := count_seg (pre ++ [it1]) mid hm
  have hone : (corrections (callsOf it1.ev)).length = 1 := by
    obtain ⟨s0, h0, -, -, hv, hs⟩ := hh1.last
    rw [h1] at hv hs
    rcases handle_step h0 hv hs with ⟨-, -, he⟩ | ⟨-, cb, -, e, out, he, hR, -, -⟩
    · rw [he] at hc; exact (hc rfl).elim
    · rw [he, callsOf_cs, hR.corr] at hc ⊢
      have h3 := corrections_le cb.period codeSec ((syncView pre).count % 16) (found s0.cs.cbs 202 data)
      have h4 := found_once (cbs := s0.cs.cbs) (port := 202) _ (read_once isTime 1 (by simp [isTime]) (by simp) (by simp [isTime]) (by simp [isTime]) (by simp [isTime]) rfl rfl [] data)
      have h5 := List.length_pos_iff.mpr hc
      omega
  have hnext : (syncView (pre ++ [it1])).count = (syncView pre).count + 1 := by
    rw [syncView_snoc]
    unfold SyncView.next
    rw [h1]
    simp only [if_true]
    rw [hone]
  have hsame : (syncView pre).count % 16 = (syncView (pre ++ [it1] ++ mid)).count % 16 := by
    have h3 := read_once isTime 1 (by simp [isTime]) (by simp) (by simp [isTime]) (by simp [isTime]) (by simp [isTime]) rfl rfl [] data
    have hu : ∀ l : List SyncCmd, l.countP isTime ≤ 1 → ∀ v w k j, SyncCmd.timeAns v k ∈ l → .timeAns w j ∈ l → k = j := by
      intro l
      induction l with
      | nil => intro _ v w k j h; cases h
      | cons x l ih =>
        intro hl v w k j hv hw
        rw [List.countP_cons] at hl
        have hz : ∀ {v k}, SyncCmd.timeAns v k ∈ l → 0 < l.countP isTime :=
          fun hm => List.countP_pos_iff.mpr ⟨_, hm, rfl⟩
        rcases List.mem_cons.mp hv with hv' | hv' <;> rcases List.mem_cons.mp hw with hw' | hw'
        · rw [← hv'] at hw'
          injection hw' with _ h
          exact h.symm
        · have := hz hw'
          rw [← hv', if_pos (show isTime (.timeAns v k) = true from rfl)] at hl
          omega
        · have := hz hv'
          rw [← hw', if_pos (show isTime (.timeAns w j) = true from rfl)] at hl
          omega
        · exact ih (by omega) v w k j hv' hw'
    exact hu _ h3 _ _ _ _ m1 m2
  omega

/-- The package registered, and a first AppTimeAns applied. -/
example : ∃ log it s, SHist Tests.xorEnv (log ++ [it]) s ∧ .cs (.correction (BitVec.ofInt 32 (-2))) ∈ it.ev := by
  have h := SDemo.next (ops := csOps.take 3) (op := .csHandle .no 202 Tests.csPld [] 1722419302) (by decide +kernel) (by decide +kernel) (by decide +kernel)
  exact ⟨_, _, _, h.1, by decide +kernel⟩

/-- The same packet twice. -/
example : ∃ pre it1 it2 s, SHist Tests.xorEnv (pre ++ [it1] ++ [] ++ [it2]) s ∧ it1.op = .csHandle .no 202 Tests.csPld [] 5 ∧
    it2.op = .csHandle .no 202 Tests.csPld [] 5 ∧ corrections (callsOf it1.ev) ≠ [] := by
  let pre := SDemo.items (csOps.take 3)
  have h := SDemo.next (ops := csOps.take 3 ++ [.csHandle .no 202 Tests.csPld [] 5]) (op := .csHandle .no 202 Tests.csPld [] 5)
    (by decide +kernel) (by decide +kernel) (by decide +kernel)
  have hs : SDemo.items (csOps.take 3 ++ [.csHandle .no 202 Tests.csPld [] 5]) = pre ++ [SDemo.nextItem (csOps.take 3) (.csHandle .no 202 Tests.csPld [] 5)] := rfl
  rw [hs] at h
  exact ⟨pre, _, _, _, by simpa using h.1, by rfl, h.2, by decide +kernel⟩

/-! ### C69 -/

/-- C69: whether answers are pending. The observer's answers are those to the last downlink without error since
`uwan_clock_sync_init`. -/
theorem C69_pending {s : Sys} (h : SHist E log s) : sysStep E s .csIsPending = .ok (.bool (!(syncView log).held.isEmpty), s, []) := by
  show Except.ok (Ret.bool s.cs.ansPending, s, []) = _
  rw [(sync_hist h).pending]

/-- C69: pending answers are sent (and stay pending), on port 202 and unconfirmed. -/
theorem C69_resend {s : Sys} (h : SHist E log s) (hp : (syncView log).held ≠ []) (rnd : Nat) :
    ∃ r st ev, step E s.stack (.send 202 (syncView log).held false rnd) = .ok (r, st, ev) ∧
      sysStep E s (.csSendAnsw rnd) = .ok (r, ⟨st, s.cs⟩, .cs (.sendFrame 202 (syncView log).held false) :: ev.map .st) := by
  have hv := sync_hist h
  have hpen : s.cs.ansPending = true := by
    rw [hv.pending]
    cases hh : (syncView log).held with
    | nil => exact (hp hh).elim
    | cons a l => rfl
  obtain ⟨r, st, ev, h1, h2⟩ := csSend_ok h s.cs (pld := (syncView log).held) (Nat.le_trans hv.heldLen (by decide)) rnd
  refine ⟨r, st, ev, h1, ?_⟩
  show (if s.cs.ansPending = true then csSend E s s.cs.ans rnd else .ok (.err .state, s, [])) = _
  rw [if_pos hpen, hv.ans hpen]
  exact h2

/-- C69: without pending answers nothing is sent. -/
theorem C69_none {s : Sys} (h : SHist E log s) (hp : (syncView log).held = []) (rnd : Nat) :
    sysStep E s (.csSendAnsw rnd) = .ok (.err .state, s, []) := by
  have hpen : s.cs.ansPending = false := by rw [(sync_hist h).pending, hp]; rfl
  show (if s.cs.ansPending = true then csSend E s s.cs.ans rnd else .ok (.err .state, s, [])) = _
  rw [hpen]
  rfl

/-- C69: answers stay pending until `uwan_clock_sync_init` or a downlink without error. -/
theorem C69_kept {mid : List SItem} {s : Sys} (h : SHist E (log ++ mid) s)
    (hm : ∀ it ∈ mid, (∀ c, it.op ≠ .csInit c) ∧ ∀ port data tail unix, it.op ≠ .csHandle .no port data tail unix) :
    sysStep E s .csIsPending = .ok (.bool (!(syncView log).held.isEmpty), s, []) ∧ ((syncView log).held ≠ [] → s.cs.ans = (syncView log).held) := by
  have hk : (syncView (log ++ mid)).held = (syncView log).held := by
    clear h
    induction mid generalizing log with
    | nil => rw [List.append_nil]
    | cons it mid ih =>
      have h1 := ih (log := log ++ [it]) fun x hx => hm x (List.mem_cons_of_mem _ hx)
      rw [List.append_assoc, List.singleton_append] at h1
      rw [h1, syncView_snoc]
      obtain ⟨h2, h3⟩ := hm it List.mem_cons_self
      unfold SyncView.next
      split
      · next c hc => exact (h2 c hc).elim
      · next err port data tail unix hc =>
        split
        · next he => subst he; exact (h3 _ _ _ _ hc).elim
        · rfl
      · rfl
  have hv := sync_hist h
  rw [C69_pending h, hk]
  refine ⟨rfl, fun hne => ?_⟩
  rw [← hk]
  refine hv.ans ?_
  rw [hv.pending, hk]
  cases hh : (syncView log).held with
  | nil => exact (hne hh).elim
  | cons a l => rfl

example : ∃ log s, SHist Tests.xorEnv log s ∧ (syncView log).held ≠ [] := ⟨_, _, SDemo.hist csFine, by decide +kernel⟩
example : ∃ log s, SHist Tests.xorEnv log s ∧ (syncView log).cbs ≠ none ∧ (syncView log).held = [] :=
  ⟨_, _, SDemo.hist (ops := csOps.take 3) (by decide +kernel), by decide +kernel⟩
/-- A time request, a failed reception and a send of the answers. -/
example : ∃ log mid s, SHist Tests.xorEnv (log ++ mid) s ∧ (syncView log).held ≠ [] ∧ mid.length = 3 ∧
    ∀ it ∈ mid, (∀ c, it.op ≠ .csInit c) ∧ ∀ port data tail unix, it.op ≠ .csHandle .no port data tail unix := by
  let more : List SOp := [.csTimeReq true 7 0, .csHandle .rxCrc 202 [0] [] 5, .csSendAnsw 0]
  have hf : SDemo.fine (csOps ++ more) = true := by decide +kernel
  have h := SDemo.hist hf
  refine ⟨(SDemo.items (csOps ++ more)).take 4, (SDemo.items (csOps ++ more)).drop 4, _, by rw [List.take_append_drop]; exact h, by decide +kernel, by decide +kernel, ?_⟩
  intro it hit
  have hops : ((SDemo.items (csOps ++ more)).drop 4).map SItem.op = more := by rw [List.map_drop, SDemo.items_ops hf]; rfl
  have : it.op ∈ more := hops ▸ List.mem_map_of_mem hit
  simp only [more, List.mem_cons, List.not_mem_nil, or_false] at this
  rcases this with e | e | e <;> rw [e] <;> simp

/-! ### C65 -/

/-- C65: the package never holds more than 9 bytes of answers, sends at most 15 bytes at a time, always on port 202 and unconfirmed;
sending never writes outside the buffers; and a received packet is processed without error unless it is one of `Fault`
(C66), which has nothing to do with the length of the answers. -/
theorem C65_answers {s : Sys} (h : SHist E log s) : s.cs.ans.length ≤ 9 ∧ (syncView log).held.length ≤ 9 := ⟨(sync_hist h).len, (sync_hist h).heldLen⟩

theorem C65_request {s : Sys} (h : SHist E log s) (ans : Bool) (unix : U32) (rnd : Nat) :
    (∃ r s' ev, sysStep E s (.csTimeReq ans unix rnd) = .ok (r, s', ev)) ∧ ∃ r s' ev, sysStep E s (.csSendAnsw rnd) = .ok (r, s', ev) := by
  constructor
  · have h1 := C63_time_request h ans unix rnd
    split at h1
    · exact ⟨_, _, _, h1⟩
    · obtain ⟨r, s', ev, -, h2⟩ := h1
      exact ⟨_, _, _, h2⟩
  · by_cases hp : (syncView log).held = []
    · exact ⟨_, _, _, C69_none h hp rnd⟩
    · obtain ⟨r, st, ev, -, h2⟩ := C69_resend h hp rnd
      exact ⟨_, _, _, h2⟩

theorem C65_sent {it : SItem} {s : Sys} {port : Byte} {pld : Bytes} {conf : Bool} (h : SHist E (log ++ [it]) s)
    (he : .cs (.sendFrame port pld conf) ∈ it.ev) : port = 202 ∧ conf = false ∧ pld.length ≤ 15 := by
  obtain ⟨s0, h0, -, -, hv, hs⟩ := h.last
  have hl := (sync_hist h0).heldLen
  have hst : ∀ (ev : List Ev), SEv.cs (.sendFrame port pld conf) ∉ ev.map .st := by
    intro ev hm
    obtain ⟨x, -, hx⟩ := List.mem_map.mp hm
    cases hx
  cases hop : it.op with
  | stack op =>
    rw [hop] at hs
    obtain ⟨⟨r1, st, e1⟩, -, hs⟩ := bind_ok hs
    simp only [Except.ok.injEq, Prod.mk.injEq] at hs
    rw [← hs.2.2] at he
    exact (hst _ he).elim
  | csInit cbs =>
    rw [hop] at hs
    simp only [sysStep, Except.ok.injEq, Prod.mk.injEq] at hs
    rw [← hs.2.2] at he
    cases he
  | csHandle err port' data tail unix =>
    rw [hop] at hv hs
    rcases handle_step h0 hv hs with ⟨-, -, h1⟩ | ⟨-, cb, -, e, out, h1, -⟩
    · rw [h1] at he; cases he
    · exfalso
      obtain ⟨⟨c, e'⟩, hc, hs⟩ := bind_ok hs
      simp only [Except.ok.injEq, Prod.mk.injEq] at hs
      rw [← hs.2.2] at he
      obtain ⟨x, hx, hxe⟩ := List.mem_map.mp he
      injection hxe with hxe
      subst hxe
      have hq := csHandle_quiet (c := s0.cs) (err := err) (port := port') (tail := tail) (unix := unix) (show data.length ≤ 255 from hv)
      rw [hc] at hq
      exact hq _ _ _ hx
  | csTimeReq ans unix rnd =>
    rw [hop] at hs
    have h1 := C63_time_request h0 ans unix rnd
    split at h1
    · rw [h1] at hs
      simp only [Except.ok.injEq, Prod.mk.injEq] at hs
      rw [← hs.2.2] at he
      cases he
    · obtain ⟨r, s', ev, -, h2⟩ := h1
      rw [h2] at hs
      simp only [Except.ok.injEq, Prod.mk.injEq] at hs
      rw [← hs.2.2] at he
      rcases List.mem_cons.mp he with he | he
      · cases he
      · rcases List.mem_cons.mp he with he | he
        · injection he with he
          injection he with h3 h4 h5
          refine ⟨h3, h5, ?_⟩
          rw [h4]
          simp [leBytes_length]
          omega
        · exact (hst _ he).elim
  | csIsPending =>
    rw [hop] at hs
    simp only [sysStep, Except.ok.injEq, Prod.mk.injEq] at hs
    rw [← hs.2.2] at he
    cases he
  | csSendAnsw rnd =>
    rw [hop] at hs
    by_cases hp : (syncView log).held = []
    · rw [C69_none h0 hp rnd] at hs
      simp only [Except.ok.injEq, Prod.mk.injEq] at hs
      rw [← hs.2.2] at he
      cases he
    · obtain ⟨r, st, ev, -, h2⟩ := C69_resend h0 hp rnd
      rw [h2] at hs
      simp only [Except.ok.injEq, Prod.mk.injEq] at hs
      rw [← hs.2.2] at he
      rcases List.mem_cons.mp he with he | he
      · injection he with he
        injection he with h3 h4 h5
        exact ⟨h3, h5, by rw [h4]; omega⟩
      · exact (hst _ he).elim

/-! ### C66 -/

/-- Processing of a packet for the package, over lists. -/
theorem handle_eq {s : Sys} {cb : CsCbs} {data tail : Bytes} {unix : U32} (hl : data.length ≤ 255) (hcb : s.cs.cbs = some cb) (hd : data ≠ []) :
    sysStep E s (.csHandle .no 202 data tail unix) = (csL cb unix tail [] data { s.cs with reqPending := false, ansPending := false } []).bind fun x =>
      .ok (.unit, { s with cs := { x.1 with ans := x.2.1, ansPending := !x.2.1.isEmpty } }, x.2.2.map .cs) := by
  obtain ⟨st, ⟨cbs, rp, tk, an, ap, nr⟩⟩ := s
  replace hcb : cbs = some cb := hcb
  subst hcb
  show (csHandle _ .no 202 (data ++ tail) (BitVec.ofNat 8 data.length) unix).bind _ = _
  rw [csHandle_eq hl]
  simp only [ne_eq, hd, not_false_eq_true, and_self, if_true]
  cases csL cb unix tail [] data _ [] <;> rfl

/-- Packets that are not processed. -/
theorem handle_idle {s : Sys} {err : Err} {port : Byte} {data : Bytes} {unix : U32} (hl : data.length ≤ 255)
    (hn : err ≠ .no ∨ s.cs.cbs = none ∨ port ≠ 202 ∨ data = []) : ∃ s', ∀ tail, sysStep E s (.csHandle err port data tail unix) = .ok (.unit, s', []) := by
  by_cases he : err = .no
  · subst he
    refine ⟨{ s with cs := { s.cs with reqPending := false, ansPending := false } }, fun tail => ?_⟩
    obtain ⟨st, ⟨cbs, rp, tk, an, ap, nr⟩⟩ := s
    show (csHandle _ .no port (data ++ tail) (BitVec.ofNat 8 data.length) unix).bind _ = _
    rw [csHandle_eq hl]
    cases hcb : cbs with
    | none => rfl
    | some cb =>
      have : ¬ (data ≠ [] ∧ port = 202) := by
        rintro ⟨h1, h2⟩
        rcases hn with h | h | h | h
        · exact h rfl
        · replace h : cbs = none := h; rw [hcb] at h; cases h
        · exact h h2
        · exact h1 h
      simp only [this, if_false]
      rfl
  · refine ⟨s, fun tail => ?_⟩
    show (csHandle s.cs err port (data ++ tail) (BitVec.ofNat 8 data.length) unix).bind _ = _
    unfold csHandle
    rw [if_pos he]
    rfl

/-- C66, partial: a packet without ForceDeviceResyncReq at its very end, without an identifier from 31 on where a command is expected, and
without a PeriodicityReq from 6 on, is processed to the end; the result does not depend on what follows it in memory. A shift is undefined
only if the packet has a negative correction. Missing: the three kinds of packets excluded (see `C66_exact`), and the shifts. -/
theorem C66_defined_partial {s : Sys} (h : SHist E log s) (err : Err) (port : Byte) {data : Bytes} (unix : U32) (hl : data.length ≤ 255)
    (hok : ¬ Fault ((syncView log).cbs == some true) True (readSync [] data)) :
    ∃ s' ev, (∀ tail, sysStep E s (.csHandle err port data tail unix) = .ok (.unit, s', ev)) ∧
      (.cs .ubShift ∈ ev → ∃ v t, .timeAns v t ∈ readSync [] data ∧ v < 0) := by
  have hv := sync_hist h
  by_cases hn : err ≠ .no ∨ s.cs.cbs = none ∨ port ≠ 202 ∨ data = []
  · obtain ⟨s', h1⟩ := handle_idle (E := E) (unix := unix) hl hn
    exact ⟨s', [], h1, fun h => by cases h⟩
  · have he : err = .no := Decidable.byContradiction fun x => hn (.inl x)
    have hp : port = 202 := Decidable.byContradiction fun x => hn (.inr (.inr (.inl x)))
    have hd : data ≠ [] := fun x => hn (.inr (.inr (.inr x)))
    subst he hp
    cases hcb : s.cs.cbs with
    | none => exact (hn (.inr (.inl hcb))).elim
    | some cb =>
      have hsup : ((syncView log).cbs == some true) = cb.period := by
        rw [hv.cbs, hcb]
        cases cb with | mk p => cases p <;> rfl
      rw [hsup] at hok
      cases hq : csL cb unix [] [] data { s.cs with reqPending := false, ansPending := false } [] with
      | error u =>
        have := csL_err [] data _ _ u hq (by decide)
        refine (hok ?_).elim
        rcases this with ⟨h1, h2⟩ | h1
        · exact .inl ⟨h1, trivial⟩
        · exact .inr h1
      | ok x =>
        refine ⟨{ s with cs := { x.1 with ans := x.2.1, ansPending := !x.2.1.isEmpty } }, x.2.2.map .cs, fun tail => ?_, ?_⟩
        · rw [handle_eq hl hcb hd, csL_tail [] data _ _ (fun hc => hok (.inl ⟨hc, trivial⟩)), hq]
          rfl
        · intro hm
          obtain ⟨y, hy, hye⟩ := List.mem_map.mp hm
          injection hye with hye
          subst hye
          exact csL_shift [] data _ _ _ _ _ hq hy

/-- C66: the packets excluded in `C66_defined_partial` are exactly those that lead to undefined behaviour when nothing follows the packet in
memory. -/
theorem C66_exact {s : Sys} (h : SHist E log s) {data : Bytes} (unix : U32) (hl : data.length ≤ 255) (hcb : (syncView log).cbs ≠ none)  :
    (∃ u, sysStep E s (.csHandle .no 202 data [] unix) = .error u) ↔ Fault ((syncView log).cbs == some true) True (readSync [] data) := by
  have hv := sync_hist h
  constructor
  · rintro ⟨u, hu⟩
    apply Classical.byContradiction
    intro hn
    obtain ⟨s', ev, h1, -⟩ := C66_defined_partial h .no 202 unix hl hn
    rw [h1] at hu
    cases hu
  · intro hF
    cases hc : s.cs.cbs with
    | none => rw [hv.cbs, hc] at hcb; exact (hcb rfl).elim
    | some cb =>
      have hsup : ((syncView log).cbs == some true) = cb.period := by
        rw [hv.cbs, hc]
        cases cb with | mk p => cases p <;> rfl
      rw [hsup] at hF
      have hd : data ≠ [] := by
        rintro rfl
        rcases hF with ⟨h1, -⟩ | h1 | ⟨-, p, -, h1⟩ <;> cases h1
      obtain ⟨u, hu⟩ := csL_fault (cb := cb) (unix := unix) (tail := []) [] data { s.cs with reqPending := false, ansPending := false } [] (by
        rcases hF with ⟨h1, -⟩ | h1
        · exact .inl ⟨h1, rfl⟩
        · exact .inr h1)
      exact ⟨u, by rw [handle_eq hl hc hd, hu]; rfl⟩

/-- C66: the parser always ends. -/
theorem C66_ends {s : Sys} (err : Err) (port : Byte) {data : Bytes} (tail : Bytes) (unix : U32) (hl : data.length ≤ 255) :
    sysStep E s (.csHandle err port data tail unix) ≠ .error .diverge := by
  have hq := csHandle_quiet (c := s.cs) (err := err) (port := port) (tail := tail) (unix := unix) hl
  show (csHandle s.cs err port (data ++ tail) (BitVec.ofNat 8 data.length) unix).bind _ ≠ _
  cases hx : csHandle s.cs err port (data ++ tail) (BitVec.ofNat 8 data.length) unix with
  | error u =>
    rw [hx] at hq
    intro h
    injection h with h
    exact hq h
  | ok x => simp [Except.bind]

/-- A history of the package without received packets. -/
def csReady : List SOp := csOps.take 3
theorem csReadyFine : SDemo.fine csReady = true := by decide +kernel

/-- The packet of the unit test is one of those covered by `C66_defined_partial`. -/
example : ∃ log s, SHist Tests.xorEnv log s ∧ ¬ Fault ((syncView log).cbs == some true) True (readSync [] Tests.csPld) := by
  refine ⟨_, _, SDemo.hist csReadyFine, ?_⟩
  have h1 : readSync [] Tests.csPld = [.version, .timeAns (-2) 0, .period 1, .resync 3] := by decide +kernel
  rw [h1]
  rintro (⟨h, -⟩ | h | ⟨-, p, hp, h⟩)
  · simp at h
  · simp at h
  · simp at h; omega

/-- C66 fails: a lone ForceDeviceResyncReq makes the parser read behind the packet; the call of the application depends on it. -/
theorem C66_overread : ∃ log s, SHist Tests.xorEnv log s ∧ sysStep Tests.xorEnv s (.csHandle .no 202 [3] [] 0) = .error .oob ∧
    (∃ s' ev, sysStep Tests.xorEnv s (.csHandle .no 202 [3] [0] 0) = .ok (.unit, s', ev) ∧ .cs .resync ∉ ev) ∧
    ∃ s' ev, sysStep Tests.xorEnv s (.csHandle .no 202 [3] [1] 0) = .ok (.unit, s', ev) ∧ .cs .resync ∈ ev := by
  refine ⟨_, _, SDemo.hist csReadyFine, ?_⟩
  have hl : ([3] : Bytes).length ≤ 255 := by decide
  have hcb : (SDemo.final csReady).cs.cbs = some ⟨true⟩ := by decide +kernel
  refine ⟨?_, ⟨{ SDemo.final csReady with cs := { (SDemo.final csReady).cs with reqPending := false, ansPending := false, nbRep := 0, ans := [] } }, [], ?_, ?_⟩,
    ⟨{ SDemo.final csReady with cs := { (SDemo.final csReady).cs with reqPending := false, ansPending := false, nbRep := 1, ans := [] } }, [.cs .resync], ?_, ?_⟩⟩
  · rw [handle_eq hl hcb (by simp)]; rfl
  · rw [handle_eq hl hcb (by simp)]; rfl
  · simp
  · rw [handle_eq hl hcb (by simp)]; rfl
  · simp

/-- C66 fails: an identifier from 31 on makes the parser shift too far. -/
theorem C66_wild {s : Sys} (h : SHist E log s) (hcb : (syncView log).cbs ≠ none) {cid : Byte} (hc : 31 ≤ cid.toNat) {rest : Bytes} (hl : rest.length ≤ 254) (unix : U32) :
    ∃ u, sysStep E s (.csHandle .no 202 (cid :: rest) [] unix) = .error u := by
  refine (C66_exact h unix (by simp; omega) hcb).mpr (.inr (.inl ?_))
  unfold readSync
  rw [if_neg (by simp), if_neg (by omega), if_neg (by omega), if_neg (by omega), if_neg (by omega), if_neg (by omega), if_neg (by omega)]
  simp

/-- C66 fails: the negative correction of the unit test is assembled with an undefined shift. -/
theorem C66_shift : ∃ log it s, SHist Tests.xorEnv (log ++ [it]) s ∧ it.op = .csHandle .no 202 Tests.csPld [] 1722419302 ∧ .cs .ubShift ∈ it.ev := by
  have h := SDemo.next (ops := csOps.take 3) (op := .csHandle .no 202 Tests.csPld [] 1722419302) (by decide +kernel) (by decide +kernel) (by decide +kernel)
  exact ⟨_, _, _, h.1, h.2, by decide +kernel⟩

/-- C65: a packet is processed without error unless it is one of those of C66; the length of the answers never matters. -/
theorem C65_handle {s : Sys} (h : SHist E log s) (err : Err) (port : Byte) {data tail : Bytes} (unix : U32) (hl : data.length ≤ 255) {u : UB}
    (hu : sysStep E s (.csHandle err port data tail unix) = .error u) :
    Fault ((syncView log).cbs == some true) True (readSync [] data) := by
  apply Classical.byContradiction
  intro hn
  obtain ⟨s', ev, h1, -⟩ := C66_defined_partial h err port unix hl hn
  rw [h1] at hu
  cases hu

/-! ### C67 -/

theorem read_period (p : Byte) (rest : Bytes) : readSync [] (2 :: p :: rest) = .period p.toNat :: readSync [2] rest := by
  conv => lhs; unfold readSync
  rw [if_neg (by simp), if_neg (by simp), if_neg (by simp), if_pos (by simp)]

/-- C67, partial: for the periods 0, 1 and 2 the application is called with 128 * 2^period seconds. Missing: the other periods, for which the
code is wrong, see `C67_wrong` and `C67_overflow`. -/
theorem C67_periods_partial {s s' : Sys} (h : SHist E log s) {p : Byte} {rest tail : Bytes} {unix : U32} {r : Ret} {ev : List SEv} (hl : rest.length ≤ 253)
    (hcb : (syncView log).cbs = some true) (hp : p.toNat ≤ 2) (hs : sysStep E s (.csHandle .no 202 (2 :: p :: rest) tail unix) = .ok (r, s', ev)) :
    (callsOf ev).head? = some (.period (128 * 2 ^ p.toNat)) ∧ (callsOf ev).countP (fun | .period _ => true | _ => false) = 1 := by
  have hlen : (2 :: p :: rest).length ≤ 255 := by simp; omega
  rcases handle_step h hlen hs with ⟨h1, -⟩ | ⟨-, cb, hcb', e, out, rfl, hR, -, -⟩
  · exact (h1 rfl).elim
  have hv := sync_hist h
  obtain ⟨hsome, hper⟩ : s.cs.cbs = some cb ∧ cb.period = true := by
    rw [hv.cbs] at hcb
    rcases hcb' with h1 | h1
    · rw [h1] at hcb; cases hcb
    · rw [h1] at hcb
      exact ⟨h1, by simpa using hcb⟩
  have hf : found s.cs.cbs 202 (2 :: p :: rest) = .period p.toNat :: readSync [2] rest := by
    rw [hsome, ← read_period]; rfl
  have hcode : codeSec p.toNat = 128 * 2 ^ p.toNat := by
    rcases (by omega : p.toNat = 0 ∨ p.toNat = 1 ∨ p.toNat = 2) with h | h | h <;> rw [h] <;> rfl
  obtain ⟨x, hx, hx'⟩ := hR.calls
  rw [callsOf_cs, hx, hf]
  have hcons : calls cb.period codeSec ((syncView log).count % 16) (.period p.toNat :: readSync [2] rest) =
      .period (128 * 2 ^ p.toNat) :: calls cb.period codeSec ((syncView log).count % 16) (readSync [2] rest) := by
    simp only [calls, List.flatMap_cons, SyncCmd.calls, hper, if_true, List.singleton_append, hcode]
  rw [hcons]
  refine ⟨rfl, ?_⟩
  rw [List.cons_append, List.countP_cons, List.countP_append]
  have hz : (calls cb.period codeSec ((syncView log).count % 16) (readSync [2] rest)).countP (fun | .period _ => true | _ => false) = 0 := by
    have h3 := read_once (fun | .period _ => true | _ => false) 2 (by simp) (by simp) (by simp) (by simp) (by simp) rfl rfl [2] rest
    replace h3 : (readSync [2] rest).countP (fun | .period _ => true | _ => false) ≤ 0 := h3
    have h4 := List.countP_eq_zero.mp (Nat.le_zero.mp h3)
    refine List.countP_eq_zero.mpr fun y hy => ?_
    obtain ⟨c, hc, hy⟩ := List.mem_flatMap.mp hy
    have h5 := h4 c hc
    cases c <;> simp only [SyncCmd.calls] at hy <;> (try split at hy) <;> simp at hy <;> subst hy <;> simp at h5 ⊢
  have hx0 : x.countP (fun | .period _ => true | _ => false) = 0 := by
    rcases hx' with rfl | ⟨rfl, -⟩ <;> rfl
  rw [hz, hx0]
  rfl

/-- C67 fails for the periods 3, 4 and 5: the application is told 2048, 32768 and 8388608 seconds instead of 1024, 2048 and 4096. -/
theorem C67_wrong : ∃ log s, SHist Tests.xorEnv log s ∧
    (∃ s' ev, sysStep Tests.xorEnv s (.csHandle .no 202 [2, 3] [] 0) = .ok (.unit, s', ev) ∧ callsOf ev = [.period 2048]) ∧
    (∃ s' ev, sysStep Tests.xorEnv s (.csHandle .no 202 [2, 4] [] 0) = .ok (.unit, s', ev) ∧ callsOf ev = [.period 32768]) ∧
    ∃ s' ev, sysStep Tests.xorEnv s (.csHandle .no 202 [2, 5] [] 0) = .ok (.unit, s', ev) ∧ callsOf ev = [.period 8388608] := by
  refine ⟨_, _, SDemo.hist csReadyFine, ?_⟩
  have hcb : (SDemo.final csReady).cs.cbs = some ⟨true⟩ := by decide +kernel
  refine ⟨?_, ?_, ?_⟩ <;>
  · rw [handle_eq (by decide) hcb (by simp)]
    exact ⟨_, _, rfl, rfl⟩

/-- C67 fails for all periods from 6 on: the computation overflows. -/
theorem C67_overflow {s : Sys} (h : SHist E log s) (hcb : (syncView log).cbs = some true) {p : Byte} (hp : 6 ≤ p.toNat) {rest : Bytes} (hl : rest.length ≤ 253) (unix : U32) :
    ∃ u, sysStep E s (.csHandle .no 202 (2 :: p :: rest) [] unix) = .error u := by
  refine (C66_exact h unix (by simp; omega) (by rw [hcb]; simp)).mpr (.inr (.inr ⟨by rw [hcb]; rfl, p.toNat, hp, ?_⟩))
  rw [read_period]
  simp

example : ∃ log s s' ev, SHist Tests.xorEnv log s ∧ (syncView log).cbs = some true ∧
    sysStep Tests.xorEnv s (.csHandle .no 202 [2, 2, 0] [] 0) = .ok (.unit, s', ev) := by
  have h := handle_eq (E := Tests.xorEnv) (data := [2, 2, 0]) (tail := []) (unix := 0) (by decide) (show (SDemo.final csReady).cs.cbs = some ⟨true⟩ by decide +kernel) (by simp)
  exact ⟨_, _, _, _, SDemo.hist csReadyFine, by decide +kernel, h.trans rfl⟩

/-! ### C68 -/

/-- C68: the application is called at most once per packet for each command, whatever the packet. -/
theorem C68_once {it : SItem} {s : Sys} (h : SHist E (log ++ [it]) s) :
    (callsOf it.ev).countP (fun | .correct _ => true | _ => false) ≤ 1 ∧ (callsOf it.ev).countP (fun | .period _ => true | _ => false) ≤ 1 ∧
    (callsOf it.ev).countP (fun | .resync => true | _ => false) ≤ 1 := by
  obtain ⟨s0, h0, -, -, hv, hs⟩ := h.last
  by_cases hnil : callsOf it.ev = []
  · rw [hnil]; simp
  obtain ⟨err, port, data, tail, unix, hop⟩ := calls_only hs hnil
  rw [hop] at hv hs
  rcases handle_step h0 hv hs with ⟨-, -, he⟩ | ⟨rfl, cb, -, e, out, he, hR, -, -⟩
  · rw [he]; simp [callsOf]
  obtain ⟨x, hx, hx'⟩ := hR.calls
  rw [he, callsOf_cs, hx]
  have key : ∀ (Q : SyncCall → Bool) (P : SyncCmd → Bool) (l : List SyncCmd), (∀ c, ((c.calls cb.period codeSec ((syncView log).count % 16)).countP Q) ≤ if P c then 1 else 0) →
      (calls cb.period codeSec ((syncView log).count % 16) l).countP Q ≤ l.countP P := by
    intro Q P l hQ
    induction l with
    | nil => simp [calls]
    | cons c l ih =>
      have : calls cb.period codeSec ((syncView log).count % 16) (c :: l) = c.calls cb.period codeSec ((syncView log).count % 16) ++ calls cb.period codeSec ((syncView log).count % 16) l := by
        simp [calls]
      rw [this, List.countP_append, List.countP_cons]
      have := hQ c
      omega
  simp only [List.countP_append]
  refine ⟨?_, ?_, ?_⟩
  · have h1 := key (fun | .correct _ => true | _ => false) isTime (found s0.cs.cbs port data) (by
      intro c; cases c <;> simp only [SyncCmd.calls] <;> (try split) <;> simp [isTime])
    have h2 := found_once (cbs := s0.cs.cbs) (port := port) _ (read_once isTime 1 (by simp [isTime]) (by simp) (by simp [isTime]) (by simp [isTime]) (by simp [isTime]) rfl rfl [] data)
    rcases hx' with rfl | ⟨rfl, -⟩ <;> simp <;> omega
  · have h1 := key (fun | .period _ => true | _ => false) (fun | .period _ => true | _ => false) (found s0.cs.cbs port data) (by
      intro c; cases c <;> simp only [SyncCmd.calls] <;> (try split) <;> simp)
    have h2 := found_once (cbs := s0.cs.cbs) (port := port) _ (read_once (fun | .period _ => true | _ => false) 2 (by simp) (by simp) (by simp) (by simp) (by simp) rfl rfl [] data)
    rcases hx' with rfl | ⟨rfl, -⟩ <;> simp <;> omega
  · have h1 := key (fun | .resync => true | _ => false) (fun | .resync _ => true | _ => false) (found s0.cs.cbs port data) (by
      intro c; cases c <;> simp only [SyncCmd.calls] <;> (try split) <;> simp)
    have h2 := found_once (cbs := s0.cs.cbs) (port := port) _ (read_once (fun | .resync _ => true | .cut => true | _ => false) 3 (by simp) (by simp) (by simp) (by simp) (by simp) rfl rfl [] data)
    have h3 : ∀ l : List SyncCmd, l.countP (fun | .resync _ => true | .cut => true | _ => false) = l.countP (fun | .resync _ => true | _ => false) + l.countP (fun | .cut => true | _ => false) := by
      intro l
      induction l with
      | nil => rfl
      | cons c l ih => rw [List.countP_cons, List.countP_cons, List.countP_cons, ih]; cases c <;> simp <;> omega
    rw [h3] at h2
    rcases hx' with rfl | ⟨rfl, hc⟩
    · simp; omega
    · have h4 : 0 < (found s0.cs.cbs port data).countP (fun | .cut => true | _ => false) := List.countP_pos_iff.mpr ⟨_, hc, rfl⟩
      rw [show ([SyncCall.resync]).countP (fun | .resync => true | _ => false) = 1 from rfl]
      omega

/-- C68: the answers to a packet contain at most one PackageVersionAns and one PeriodicityAns. -/
theorem C68_answers {it : SItem} {s : Sys} {port : Byte} {data tail : Bytes} {unix : U32} (h : SHist E (log ++ [it]) s)
    (hop : it.op = .csHandle .no port data tail unix) {rnd : Nat} {r : Ret} {s' : Sys} {ev : List SEv} {p : Byte} {pld : Bytes} {conf : Bool}
    (hs : sysStep E s (.csSendAnsw rnd) = .ok (r, s', ev)) (he : .cs (.sendFrame p pld conf) ∈ ev) :
    let V : Bytes := [0, 1, 1]
    let P : Bytes := [2, if (syncView log).cbs = some true then 0 else 1] ++ leBytes 4 (gpsTime unix.toNat)
    pld = V ∨ pld = P ∨ pld = V ++ P ∨ pld = P ++ V := by
  intro V P
  have hst : ∀ (ev : List Ev), SEv.cs (.sendFrame p pld conf) ∉ ev.map .st := by
    intro ev hm
    obtain ⟨x, -, hx⟩ := List.mem_map.mp hm
    cases hx
  have hpld : (syncView (log ++ [it])).held ≠ [] ∧ pld = (syncView (log ++ [it])).held := by
    by_cases hp : (syncView (log ++ [it])).held = []
    · rw [C69_none h hp rnd] at hs
      simp only [Except.ok.injEq, Prod.mk.injEq] at hs
      rw [← hs.2.2] at he
      cases he
    · obtain ⟨r, st, ev, -, h2⟩ := C69_resend h hp rnd
      rw [h2] at hs
      simp only [Except.ok.injEq, Prod.mk.injEq] at hs
      rw [← hs.2.2] at he
      rcases List.mem_cons.mp he with he | he
      · injection he with he
        injection he with h3 h4 h5
        exact ⟨hp, h4⟩
      · exact (hst _ he).elim
  obtain ⟨hne, rfl⟩ := hpld
  rw [syncView_snoc] at hne ⊢
  unfold SyncView.next at hne ⊢
  rw [hop] at hne ⊢
  simp only [if_true] at hne ⊢
  cases hcb : (syncView log).cbs with
  | none => rw [hcb] at hne; exact (hne rfl).elim
  | some sup =>
    rw [hcb] at hne
    have hP : P = [2, if sup then 0 else 1] ++ leBytes 4 (gpsTime unix.toNat) := by
      show [2, if (syncView log).cbs = some true then 0 else 1] ++ _ = _
      rw [hcb]
      simp
    simp only at hne ⊢
    split at hne
    · next hport =>
      rw [if_pos hport, hP]
      have key : ∀ l : List SyncCmd, l.countP (fun | .version => true | _ => false) ≤ 1 → l.countP (fun | .period _ => true | _ => false) ≤ 1 →
          let P : Bytes := [2, if sup then 0 else 1] ++ leBytes 4 (gpsTime unix.toNat)
          let A := answers sup unix.toNat l
          (l.countP (fun | .version => true | _ => false) = 0 → l.countP (fun | .period _ => true | _ => false) = 0 → A = []) ∧
          (l.countP (fun | .version => true | _ => false) = 0 → l.countP (fun | .period _ => true | _ => false) = 1 → A = P) ∧
          (l.countP (fun | .version => true | _ => false) = 1 → l.countP (fun | .period _ => true | _ => false) = 0 → A = V) ∧
          (l.countP (fun | .version => true | _ => false) = 1 → l.countP (fun | .period _ => true | _ => false) = 1 → A = V ++ P ∨ A = P ++ V) := by
        intro l
        induction l with
        | nil => simp [answers]
        | cons c l ih =>
          intro h1 h2
          have ih := ih (by rw [List.countP_cons] at h1; omega) (by rw [List.countP_cons] at h2; omega)
          simp only [answers, List.flatMap_cons] at ih ⊢
          simp only [List.countP_cons] at h1 h2 ⊢
          obtain ⟨i1, i2, i3, i4⟩ := ih
          cases c with
          | version =>
            simp only [if_true, Bool.false_eq_true, if_false, Nat.add_zero] at h1 h2 ⊢
            refine ⟨fun h => by omega, fun h => by omega, fun h h' => ?_, fun h h' => .inl ?_⟩
            · rw [i1 (by omega) h']; rfl
            · rw [i2 (by omega) h']; rfl
          | period p =>
            simp only [if_true, Bool.false_eq_true, if_false, Nat.add_zero] at h1 h2 ⊢
            refine ⟨fun _ h => by omega, fun h h' => ?_, fun _ h => by omega, fun h h' => .inr ?_⟩
            · rw [i1 h (by omega)]; simp [SyncCmd.answer]
            · rw [i3 h (by omega)]; rfl
          | _ => exact ⟨i1, i2, i3, i4⟩
      have k1 := read_once (fun | .version => true | _ => false) 0 (by simp) (by simp) (by simp) (by simp) (by simp) rfl rfl [] data
      have k2 := read_once (fun | .period _ => true | _ => false) 2 (by simp) (by simp) (by simp) (by simp) (by simp) rfl rfl [] data
      replace k1 : (readSync [] data).countP (fun | .version => true | _ => false) ≤ 1 := k1
      replace k2 : (readSync [] data).countP (fun | .period _ => true | _ => false) ≤ 1 := k2
      obtain ⟨q1, q2, q3, q4⟩ := key _ k1 k2
      rcases (by omega : (readSync [] data).countP (fun | .version => true | _ => false) = 0 ∨ (readSync [] data).countP (fun | .version => true | _ => false) = 1) with c1 | c1 <;>
        rcases (by omega : (readSync [] data).countP (fun | .period _ => true | _ => false) = 0 ∨ (readSync [] data).countP (fun | .period _ => true | _ => false) = 1) with c2 | c2
      · exact (hne (q1 c1 c2)).elim
      · exact .inr (.inl (q2 c1 c2))
      · exact .inl (q3 c1 c2)
      · exact .inr (.inr (q4 c1 c2))
    · exact (hne rfl).elim

/-- C68: processing stops at the first repeated command: what follows changes nothing, and neither does what follows the packet in
memory. -/
theorem C68_stop {s : Sys} (port : Byte) (msgs : List SyncMsg) {cid : Byte} {rest tail tail' : Bytes} {unix : U32}
    (hl : (msgs.flatMap SyncMsg.bytes ++ cid :: rest).length ≤ 255) (hc : cid ∈ msgs.map SyncMsg.cid) :
    sysStep E s (.csHandle .no port (msgs.flatMap SyncMsg.bytes ++ cid :: rest) tail unix) =
    sysStep E s (.csHandle .no port (msgs.flatMap SyncMsg.bytes) tail' unix) := by
  have hl' : (msgs.flatMap SyncMsg.bytes).length ≤ 255 := by
    rw [List.length_append] at hl; omega
  have hne : msgs.flatMap SyncMsg.bytes ≠ [] := by
    intro h0
    obtain ⟨m, hm, -⟩ := List.mem_map.mp hc
    have := List.flatMap_eq_nil_iff.mp h0 m hm
    cases m <;> cases this
  obtain ⟨st, ⟨cbs, rp, tk, an, ap, nr⟩⟩ := s
  show (csHandle _ .no port _ _ unix).bind _ = (csHandle _ .no port _ _ unix).bind _
  rw [csHandle_eq hl, csHandle_eq hl']
  cases hcb : cbs with
  | none => rfl
  | some cb =>
    by_cases hp : port = 202
    · simp only [ne_eq, hne, hp, not_false_eq_true, and_self, if_true, List.append_eq_nil_iff, reduceCtorEq]
      rw [csL_repeat (tail' := tail') msgs [] _ _ (.inr hc)]
    · simp only [hp, and_false, if_false]

example : (2 : Byte) ∈ ([.version, .period 1, .resync 2] : List SyncMsg).map SyncMsg.cid := by decide

end Uwan
