import Verif.Lemmas.Reenter
import Verif.Lemmas.Join
import Verif.Lemmas.Parse

/-! # Uplink counters when callbacks call the stack -/

namespace Uwan
open Spec

variable {E : Env}

theorem upHeads_append (a b : List Ev) : upHeads (a ++ b) = upHeads a ++ upHeads b := by
  unfold upHeads; rw [txs_append, List.filterMap_append]

theorem upHeads_quiet {q : List Ev} (h : Quiet q) : upHeads q = [] := by
  unfold upHeads; rw [txs_quiet h]; rfl

theorem upHeads_cons {e : Ev} {l : List Ev} (h : ∀ d, e ≠ .tx d) : upHeads (e :: l) = upHeads l := by
  unfold upHeads txs
  cases e <;> first | rfl | exact absurd rfl (h _)

/-- The heads of `n` uplinks from counter `u` on. -/
def ticks (addr : Nat) : Nat → Nat → List (Nat × Nat)
  | _, 0 => []
  | u, n + 1 => (addr, u % 65536) :: ticks addr (u + 1) n

theorem ticks_congr (addr : Nat) : ∀ (n u v : Nat), u % 65536 = v % 65536 → ticks addr u n = ticks addr v n
  | 0, _, _, _ => rfl
  | n + 1, u, v, h => by
    simp only [ticks, h]
    rw [ticks_congr addr n (u + 1) (v + 1) (by omega)]

theorem ticks_append (addr : Nat) : ∀ (m u n : Nat), ticks addr u (m + n) = ticks addr u m ++ ticks addr (u + m) n
  | 0, u, n => by simp [ticks]
  | m + 1, u, n => by
    rw [show m + 1 + n = m + n + 1 by omega]
    simp only [ticks, List.cons_append]
    rw [ticks_append addr m (u + 1) n, show u + 1 + m = u + (m + 1) by omega]

theorem ticks_length (addr : Nat) : ∀ (n u : Nat), (ticks addr u n).length = n
  | 0, _ => rfl
  | n + 1, u => by simp [ticks, ticks_length addr n]

theorem ticks_eq (addr : Nat) : ∀ (n u : Nat), ticks addr u n = (List.range n).map (fun i => (addr, (u + i) % 65536))
  | 0, _ => rfl
  | n + 1, u => by
    rw [List.range_succ_eq_map, List.map_cons, List.map_map, ticks, ticks_eq addr n (u + 1)]
    refine congrArg (_ :: ·) (List.map_congr_left fun i _ => ?_)
    simp only [Function.comp]
    rw [show u + 1 + i = u + i.succ by omega]

/-- From `s` to `s'` the address stays and every data frame handed to the radio takes the next counter. -/
structure Ups (s : St) (ev : List Ev) (s' : St) : Prop where
  addr : s'.session.devAddr = s.session.devAddr
  heads : ∃ n, upHeads ev = ticks s.session.devAddr.toNat s.session.fCntUp.toNat n ∧
    s'.session.fCntUp = s.session.fCntUp + BitVec.ofNat 32 n

theorem Ups.none {s s' : St} {ev : List Ev} (h : upHeads ev = []) (ha : s'.session.devAddr = s.session.devAddr)
    (hu : s'.session.fCntUp = s.session.fCntUp) : Ups s ev s' :=
  ⟨ha, 0, h, by rw [hu]; simp⟩

theorem Ups.refl (s : St) : Ups s [] s := .none rfl rfl rfl

theorem Ups.trans {a b c : St} {u v : List Ev} (h : Ups a u b) (h' : Ups b v c) : Ups a (u ++ v) c := by
  obtain ⟨h1, n, h2, h3⟩ := h
  obtain ⟨k1, m, k2, k3⟩ := h'
  refine ⟨k1.trans h1, n + m, ?_, ?_⟩
  · rw [upHeads_append, h2, k2, ticks_append, h1, h3]
    refine congrArg (_ ++ ·) (ticks_congr _ _ _ _ ?_)
    rw [BitVec.toNat_add, BitVec.toNat_ofNat]
    omega
  · rw [k3, h3]
    apply BitVec.eq_of_toNat_eq
    simp only [BitVec.toNat_add, BitVec.toNat_ofNat]
    omega

theorem Ups.quiet {s s' : St} {q : List Ev} (h : Quiet q) (ha : s'.session.devAddr = s.session.devAddr)
    (hu : s'.session.fCntUp = s.session.fCntUp) : Ups s q s' := .none (upHeads_quiet h) ha hu

theorem MacFrame.ups {s s' : St} (h : MacFrame s s') {q : List Ev} (hq : upHeads q = []) : Ups s q s' := .none hq h.devAddr h.fCntUp

/-- Replace both ends by states with the same address and counter. -/
theorem Ups.of {a a' b b' : St} {ev : List Ev} (h : Ups a ev b) (h1 : a'.session.devAddr = a.session.devAddr)
    (h2 : a'.session.fCntUp = a.session.fCntUp) (h3 : b'.session.devAddr = b.session.devAddr)
    (h4 : b'.session.fCntUp = b.session.fCntUp) : Ups a' ev b' := by
  obtain ⟨k1, n, k2, k3⟩ := h
  exact ⟨by rw [h3, k1, h1], n, by rw [k2, h1, h2], by rw [h4, k3, h2]⟩

theorem Ups.evs {a b : St} {ev ev' : List Ev} (h : Ups a ev b) (he : upHeads ev' = upHeads ev) : Ups a ev' b := by
  obtain ⟨k1, n, k2, k3⟩ := h
  exact ⟨k1, n, by rw [he, k2], k3⟩

theorem upHead_uplink (s : St) (p : Byte) (l : Bytes) (c : Bool) :
    upHead (buildUplink E s p l c).1 = some (s.session.devAddr.toNat, s.session.fCntUp.toNat % 65536) := by
  unfold buildUplink
  simp only [List.cons_append, upHead, leNat_byteOf4, leNat_byteOf2]
  cases c <;> rfl

theorem upHead_join (s : St) (n : U32) : upHead (buildJoin E s n).1 = none := by
  unfold buildJoin
  simp only [List.cons_append]
  generalize (_ : Bytes) ++ _ = l
  match l with
  | a0 :: a1 :: a2 :: a3 :: f :: c0 :: c1 :: r => rfl
  | [] | [_] | [_, _] | [_, _, _] | [_, _, _, _] | [_, _, _, _, _] | [_, _, _, _, _, _] => rfl

theorem sentSt_session (s : St) (d : Sf × Bw) (fr : Bytes) : (sentSt s d fr).session.devAddr = s.session.devAddr ∧
    (sentSt s d fr).session.fCntUp = s.session.fCntUp + 1 := by
  unfold sentSt adrHandleUplink
  simp only
  repeat' split
  all_goals exact ⟨rfl, rfl⟩

theorem call_ups {s s' : St} (h : Inv s) {op : Op} (hv : op.Call) (hm : op.Mild) {r : Ret} {ev : List Ev}
    (hs : step E s op = .ok (r, s', ev)) : Ups s ev s' := by
  cases op with
  | event m o => exact absurd rfl (hv.2 m o)
  | init r => exact absurd rfl (hm.1 r)
  | setSession a u d n k => exact absurd rfl (hm.2 a u d n k)
  | send p l c n =>
    obtain ⟨e, -, hc⟩ := step_send h hs
    cases hc with
    | sent f d =>
      obtain ⟨e1, e2⟩ := sentSt_session s d ((buildUplink E s p l c).1 ++ s.frame.drop (buildUplink E s p l c).1.length)
      refine ⟨e1, 1, ?_, e2⟩
      unfold upHeads
      rw [txs_sent]
      simp [upHead_uplink, ticks]
    | _ => exact .refl s
  | join a b =>
    obtain ⟨e, -, hc⟩ := step_join h hs
    cases hc with
    | sent =>
      refine .none ?_ rfl rfl
      unfold upHeads
      rw [txs_join]
      simp [upHead_join]
    | _ => exact .refl s
  | timer id =>
    simp only [step, Except.ok.injEq, Prod.mk.injEq] at hs
    rw [← hs.2.1, ← hs.2.2]; unfold timerCallback; repeat' split
    all_goals exact .none rfl rfl rfl
  | setRx2 f d =>
    simp only [step, Except.ok.injEq, Prod.mk.injEq] at hs
    rw [← hs.2.1, ← hs.2.2]; exact (macFrame_setRx2 s f d).ups rfl
  | setDr d =>
    simp only [step, Except.ok.injEq, Prod.mk.injEq] at hs
    rw [← hs.2.1, ← hs.2.2]; unfold setDr; split <;> exact .none rfl rfl rfl
  | setNbTrans d =>
    simp only [step, Except.ok.injEq, Prod.mk.injEq] at hs
    rw [← hs.2.1, ← hs.2.2]; unfold setNbTrans setNbTransInt; simp only; repeat' split
    all_goals exact .none rfl rfl rfl
  | setTxPower d =>
    simp only [step, Except.ok.injEq, Prod.mk.injEq] at hs
    rw [← hs.2.1, ← hs.2.2]; unfold setTxPower setTxPowerInt; simp only; repeat' split
    all_goals exact .none rfl rfl rfl
  | setRx1DrOffset d =>
    simp only [step, Except.ok.injEq, Prod.mk.injEq] at hs
    rw [← hs.2.1, ← hs.2.2]; exact (macFrame_setRx1DrOffset s d).ups rfl
  | setRx1Delay d =>
    simp only [step, Except.ok.injEq, Prod.mk.injEq] at hs
    rw [← hs.2.1, ← hs.2.2]; exact (macFrame_setRx1Delay s d).ups rfl
  | _ =>
    simp only [step, Except.ok.injEq, Prod.mk.injEq] at hs
    rw [← hs.2.1, ← hs.2.2]; exact .none rfl rfl rfl

theorem calls_ups : ∀ (ops : List Op) (s s' : St) (ev : List Ev), Inv s → s.region.isSome = true →
    (∀ op ∈ ops, op.Call ∧ op.Mild) → run E s ops = .ok (s', ev) → Ups s ev s'
  | [], s, s', ev, _, _, _, he => by
    simp only [run, Except.ok.injEq, Prod.mk.injEq] at he
    rw [← he.1, ← he.2]; exact .refl s
  | op :: ops, s, s', ev, h, hr, hv, he => by
    obtain ⟨r, s1, ev1, ev2, h1, h2, rfl⟩ := run_cons he
    obtain ⟨hc, hm⟩ := hv op (by simp)
    obtain ⟨r', s1', ev1', h1', hi, hr', -⟩ := call_ok (E := E) h hr hc
    rw [h1] at h1'
    simp only [Except.ok.injEq, Prod.mk.injEq] at h1'
    rw [← h1'.2.1] at hi hr'
    exact (call_ups h hc hm h1).trans (calls_ups ops s1 s' ev2 hi hr' (fun o ho => hv o (by simp [ho])) h2)

theorem runHandlerR_ups {s s' : St} (h : Inv s) (hr : s.region.isSome = true) {ops : List Op}
    (hv : ∀ op ∈ ops, op.Call ∧ op.Mild) (c : MacCommand) (hc : c ∈ macCommands) (pld : Bytes)
    (hl : c.pldSize ≤ pld.length) (bat : Byte) {b : Bool} {ev : List Ev}
    (he : runHandlerR E ops c.handler s pld bat = .ok (b, s', ev)) : Ups s ev s' := by
  obtain ⟨b0, s0, ev0, e0, hi0, hf0⟩ := runHandler_ok h hr c hc pld hl bat
  obtain ⟨s1, ev1, h1, hi1, hr1, hq1⟩ := calls_ok (E := E) ops s h hr (fun op ho => (hv op ho).1)
  have hu := calls_ups ops s s1 ev1 h hr hv h1
  unfold runHandlerR at he
  split at he
  · unfold hLinkCheckR at he
    repeat' split at he
    · rw [h1] at he
      simp only [bind, Except.bind, Except.ok.injEq, Prod.mk.injEq] at he
      rw [← he.2.1, ← he.2.2]
      exact hu.evs (upHeads_cons fun _ => by simp)
    · simp at he
    all_goals
      simp only [Except.ok.injEq, Prod.mk.injEq] at he
      rw [← he.2.1, ← he.2.2]; exact .refl s
  · unfold hDevStatusR at he
    simp only at he
    repeat' split at he
    · rw [h1] at he
      simp only [bind, Except.bind, Except.ok.injEq, Prod.mk.injEq] at he
      rw [← he.2.1, ← he.2.2]
      exact (hu.evs (upHeads_cons fun _ => by simp)).of rfl rfl (macFrame_enqueue ..).devAddr (macFrame_enqueue ..).fCntUp
    all_goals
      simp only [Except.ok.injEq, Prod.mk.injEq] at he
      rw [← he.2.1, ← he.2.2]; exact (macFrame_enqueue ..).ups rfl
  · unfold hDeviceTimeR at he
    repeat' split at he
    · rw [h1] at he
      simp only [bind, Except.bind, Except.ok.injEq, Prod.mk.injEq] at he
      rw [← he.2.1, ← he.2.2]
      refine hu.evs ?_
      rw [upHeads_append, upHeads_quiet (shiftMark_quiet _)]
      exact upHeads_cons fun _ => by simp
    · simp at he
    all_goals
      simp only [Except.ok.injEq, Prod.mk.injEq] at he
      rw [← he.2.1, ← he.2.2]; exact .refl s
  · rw [e0] at he
    simp only [Except.ok.injEq, Prod.mk.injEq] at he
    rw [← he.2.1, ← he.2.2]; exact hf0.ups (upHeads_quiet (runHandler_quiet e0))

theorem macLoopR_ups {A : Inside} (ha : A.Valid) (hm : A.Mild) (bat : Nat → Byte) : ∀ (n : Nat) (s s' : St) (off len : Nat)
    (ev : List Ev), off + len ≤ 255 → Inv s → s.region.isSome = true →
    macLoopR E A bat n s off len = .ok (s', ev) → Ups s ev s'
  | n, s, s', off, 0, ev, _, _, _, he => by
    have : macLoopR E A bat n s off 0 = .ok (s, []) := by cases n <;> rfl
    rw [this] at he
    simp only [Except.ok.injEq, Prod.mk.injEq] at he
    rw [← he.1, ← he.2]; exact .refl s
  | 0, _, _, _, _ + 1, _, _, _, _, he => by simp [macLoopR] at he
  | n + 1, s, s', off, len + 1, ev, hb, h, hr, he => by
    rw [macLoopR] at he
    have hlen : (s.frame.drop off).length = 255 - off := by simp [h.frame]
    split at he
    · simp at he
    next cid more hx =>
    rw [hx] at hlen
    split at he
    · simp only [Except.ok.injEq, Prod.mk.injEq] at he
      rw [← he.1, ← he.2]; exact .refl s
    next c hf =>
    split at he
    · next hsz =>
      have hcm := List.mem_of_find?_eq_some hf
      have hml : c.pldSize ≤ (more.take len).length := by simp at hlen ⊢; omega
      obtain ⟨b, s1, ev1, e1, hi1, hr1, -⟩ := runHandlerR_ok (E := E) h hr (ha.1 len) c hcm (more.take len) hml (bat len)
      have ups1 := runHandlerR_ups (E := E) h hr (fun op ho => ⟨ha.1 len op ho, hm len op ho⟩) c hcm (more.take len)
        hml (bat len) e1
      rw [e1] at he
      simp only [bind, Except.bind] at he
      cases b with
      | false =>
        simp only [Bool.false_eq_true, ↓reduceIte, Except.ok.injEq, Prod.mk.injEq] at he
        rw [← he.1, ← he.2]; exact ups1
      | true =>
        simp only [↓reduceIte] at he
        split at he
        · simp at he
        · next x hx2 =>
          simp only [Except.ok.injEq, Prod.mk.injEq] at he
          rw [← he.1, ← he.2]
          exact ups1.trans (macLoopR_ups ha hm bat n s1 x.1 _ _ x.2 (by omega) hi1 hr1 hx2)
    · simp only [Except.ok.injEq, Prod.mk.injEq] at he
      rw [← he.1, ← he.2]; exact .refl s

theorem dataFinish_ups {s s' : St} (pkt : DlPkt) (x : Option Bytes) (buf : Bytes) (off : Nat) {e : Err} {p : DlPkt} {ev : List Ev}
    (he : dataFinish E s pkt x buf off = .ok (e, s', p, ev)) :
    s'.session.devAddr = s.session.devAddr ∧ s'.session.fCntUp = s.session.fCntUp := by
  unfold dataFinish at he
  simp only at he
  split at he
  · simp only [Except.ok.injEq, Prod.mk.injEq] at he
    rw [← he.2.1]; exact ⟨rfl, rfl⟩
  · split at he
    · simp only [bind, Except.bind] at he
      split at he
      · simp at he
      · simp only [Except.ok.injEq, Prod.mk.injEq] at he
        rw [← he.2.1]; exact ⟨rfl, rfl⟩
    · simp only [Except.ok.injEq, Prod.mk.injEq] at he
      rw [← he.2.1]; exact ⟨rfl, rfl⟩

theorem dataBodyR_ups {A : Inside} (ha : A.Valid) (hm : A.Mild) (bat : Nat → Byte) {s s' : St} (h : Inv s)
    (hr : s.region.isSome = true) (pkt : DlPkt) {size fo : Nat} (hs1 : 12 + fo ≤ size) (hs2 : size ≤ 255) {e : Err} {p : DlPkt} {ev : List Ev}
    (he : dataBodyR E A bat s pkt size fo = .ok (e, s', p, ev)) : Ups s ev s' := by
  have hi : Inv { s with snr := pkt.snr } := { h with }
  obtain ⟨s1, w1, q1, x1, u1, c1, t1, f1, rfl⟩ := dataBodyR_parts he
  have hc : Ups { s with snr := pkt.snr } w1 s1 ∧ Inv s1 := by
    unfold dataCmdsR at c1
    split at c1
    · obtain ⟨a, b, e1, e2, -⟩ := macLoopR_ok (E := E) ha bat fo { s with snr := pkt.snr } 8 fo (Nat.le_refl _) (by omega) hi hr
      refine ⟨macLoopR_ups ha hm bat fo _ s1 8 fo w1 (by omega) hi hr c1, ?_⟩
      rw [c1] at e1
      simp only [Except.ok.injEq, Prod.mk.injEq] at e1
      rw [e1.1]; exact e2
    · simp only [Except.ok.injEq, Prod.mk.injEq] at c1
      rw [← c1.1, ← c1.2]; exact ⟨.refl _, hi⟩
  obtain ⟨f2, f3⟩ := dataFinish_ups _ _ _ _ f1
  obtain ⟨p', x', e2, hx⟩ := dataTail_ok (pkt := pkt) (n := size - (12 + fo)) (l := (s1.frame.take size).drop (8 + fo))
    (by simp [hc.2.frame]; omega)
  rw [t1] at e2
  simp only [Except.ok.injEq, Prod.mk.injEq] at e2
  obtain ⟨e0, s0, p0, ev0, e3, -, -, hq3⟩ := dataFinish_ok (E := E) hc.2 q1 (x := x1) (off := 8 + fo + 1) (s1.frame.take size)
    (fun q hq => by have := hx q (by rw [← e2.2]; exact hq); omega)
  rw [f1] at e3
  simp only [Except.ok.injEq, Prod.mk.injEq] at e3
  exact (hc.1.of rfl rfl rfl rfl : Ups s w1 s1).trans (.none (by rw [e3.2.2.2]; exact upHeads_quiet hq3) f2 f3)

theorem mark_ups (H : DHdr) (s : St) : (H.mark s).session.devAddr = s.session.devAddr ∧ (H.mark s).session.fCntUp = s.session.fCntUp := by
  unfold DHdr.mark markAck
  split <;> exact ⟨rfl, rfl⟩

theorem handleDataMsgR_ups {A : Inside} (ha : A.Valid) (hm : A.Mild) (bat : Nat → Byte) {s s' : St} (h : Inv s)
    (hr : s.region.isSome = true) (pkt : DlPkt) {buf : Bytes} (hp : pkt.data = some buf) (hl : buf.length ≤ 255) {e : Err}
    {p : DlPkt} {ev : List Ev} (he : handleDataMsgR E A bat s pkt = .ok (e, s', p, ev)) : Ups s ev s' := by
  rcases handleDataMsgR_split (E := E) bat h pkt buf hp with ⟨e1, s1, p1, ev1, hA, -, -, -, hq, hs⟩ | ⟨H, d, hH, hf, hA, -⟩
  · rw [hA] at he
    simp only [Except.ok.injEq, Prod.mk.injEq] at he
    rw [← he.2.1, ← he.2.2.2]
    rcases hs with rfl | ⟨H, rfl⟩
    · exact .quiet hq rfl rfl
    · exact .quiet hq (mark_ups H s).1 (mark_ups H s).2
  · have hmk := h.mark H
    have hc : Inv (H.counted s d) := { hmk with }
    have hcr : (H.counted s d).region.isSome = true := by show (H.mark s).region.isSome = true; rw [mark_region]; exact hr
    rw [hA] at he
    simp only [bind, Except.bind] at he
    split at he
    · simp at he
    next x hx =>
    simp only [Except.ok.injEq, Prod.mk.injEq] at he
    have := dataBodyR_ups ha hm bat hc hcr pkt hf hl (hx.trans (by rfl))
    obtain ⟨m1, m2⟩ := mark_ups H s
    rw [← he.2.1, ← he.2.2.2]
    refine (this.of (a' := s) m1.symm m2.symm rfl rfl).evs ?_
    rw [upHeads_append, upHeads_quiet (shiftMark_quiet _)]; rfl

theorem NoJoin.right {a b : List Ev} (h : NoJoin (a ++ b)) : NoJoin b := fun p hp => h p (List.mem_append_right _ hp)

theorem NoJoin.left {a b : List Ev} (h : NoJoin (a ++ b)) : NoJoin a := fun p hp => h p (List.mem_append_left _ hp)

theorem handleDownlinkR_ups {A : Inside} (ha : A.Valid) (hm : A.Mild) (o : Oracle) {s s' : St} (h : Inv s)
    (hr : s.region.isSome = true) (err : Err) {ev : List Ev} (he : handleDownlinkR E A o s err = .ok (s', ev))
    (hn : NoJoin ev) : Ups s ev s' := by
  unfold handleDownlinkR at he
  split at he
  rotate_left
  · simp only [Except.ok.injEq, Prod.mk.injEq] at he
    rw [← he.1, ← he.2]; exact .none rfl rfl rfl
  next hno =>
  have hl : (o.rxData.take 255).length ≤ 255 := by simp; omega
  simp only [blit_zero (dst := s.frame) (src := o.rxData.take 255) (by rw [h.frame]; exact hl), orOob, bind, Except.bind] at he
  have hinv : Inv (rxSt o s) := h.frameUpd (rxSt_frame o h.frame)
  split at he
  · simp at he
  next hd hhd =>
  by_cases hj : s.joinState = true
  · simp only [if_pos hj] at he
    obtain ⟨e1, s1, p1, w1, q1, c1⟩ := handleJoinMsg_cases E hinv hr (rxPkt o) (o.rxData.take 255) rfl
    unfold rxSt rxPkt at q1
    rw [q1] at he
    simp only [Except.ok.injEq, Prod.mk.injEq] at he
    rw [← he.2] at hn
    rw [← he.1, ← he.2]
    have hw : upHeads w1 = [] := upHeads_quiet c1.quiet
    have hz : ∀ x p, upHeads ([Ev.readPacket, .sleep] ++ w1 ++ [.downlink x ((hd >>> 5) &&& 7) p]) = [] := by
      intro x p; rw [upHeads_append, upHeads_append, hw]; rfl
    cases c1 with
    | good blks fr J c hb =>
      exfalso
      rw [hb] at hhd
      simp only [List.cons_append, List.head?_cons, Except.ok.injEq] at hhd
      rw [← hhd] at hn
      exact hn.right _ (List.mem_singleton.mpr rfl)
    | _ => exact .none (hz _ _) rfl rfl
  · simp only [if_neg hj] at he
    obtain ⟨e1, s1, p1, w1, q1, -, -, -⟩ := handleDataMsgR_ok (E := E) ha o.bat hinv hr (rxPkt o) (o.rxData.take 255) rfl hl
    have hu := handleDataMsgR_ups ha hm o.bat hinv hr (rxPkt o) rfl hl q1
    unfold rxSt rxPkt at q1
    rw [q1] at he
    simp only [Except.ok.injEq, Prod.mk.injEq] at he
    rw [← he.1, ← he.2]
    refine (hu.of (a' := s) (b' := { s1 with joinState := false }) rfl rfl rfl rfl).evs ?_
    rw [upHeads_append, upHeads_append]
    exact List.append_nil _

theorem macOnTxCompleteR_ups {ops : List Op} (hv : ∀ op ∈ ops, op.Call ∧ op.Mild) {s s' : St} (h : Inv s) (hr : s.region.isSome = true)
    (t : U32) {ev : List Ev} (he : macOnTxCompleteR E ops s t = .ok (s', ev)) : Ups s ev s' := by
  unfold macOnTxCompleteR at he
  split at he
  · split at he
    · simp at he
    · simp only at he
      split at he
      · simp only [bind, Except.bind] at he
        split at he
        · simp at he
        next x hx =>
        simp only [Except.ok.injEq, Prod.mk.injEq] at he
        have := calls_ups ops { s with mac := { s.mac with saveDevTime := false } } x.1 x.2 { h with } hr hv hx
        rw [← he.1, ← he.2]
        exact (this.of (a' := s) (b' := { x.1 with mac := { x.1.mac with devTime := t } }) rfl rfl rfl rfl).evs
          (upHeads_cons fun _ => by simp)
      · simp only [Except.ok.injEq, Prod.mk.injEq] at he
        rw [← he.1, ← he.2]; exact .none rfl rfl rfl
  · simp only [Except.ok.injEq, Prod.mk.injEq] at he
    rw [← he.1, ← he.2]; exact .none rfl rfl rfl

theorem evtHandlerR_ups {A : Inside} (ha : A.Valid) (hm : A.Within) (o : Oracle) {s s' : St} (h : Inv s) (mask : Byte)
    {ev : List Ev} (he : evtHandlerR E A o s mask = .ok (s', ev)) (hn : NoJoin ev) : Ups s ev s' := by
  have hi : ∀ p, s.phase ≠ .notInit → Inv { s with phase := p } := fun p hp => { h with region := fun _ => h.region hp }
  unfold evtHandlerR at he
  cases hp : s.phase with
  | notInit =>
    rw [hp] at he
    simp only [Except.ok.injEq, Prod.mk.injEq] at he
    rw [← he.1, ← he.2]; exact .refl s
  | idle =>
    rw [hp] at he
    simp only [Except.ok.injEq, Prod.mk.injEq] at he
    rw [← he.1, ← he.2]; exact .refl s
  | tx =>
    have hreg := h.region (by rw [hp]; decide)
    have hi1 := hi .rx1 (by rw [hp]; decide)
    rw [hp] at he
    simp only [evtTxR] at he
    split at he
    · simp only [rx1Params_ok h, bind, Except.bind] at he
      split at he
      · simp at he
      next x hx =>
      simp only [Except.ok.injEq, Prod.mk.injEq] at he
      have := macOnTxCompleteR_ups (s := { s with phase := .rx1, pp := rx1Pp s }) (s' := x.1) (ev := x.2) (fun op ho => ⟨ha.2 op ho, hm.2 op ho⟩) { hi1 with } hreg o.devTime hx
      rw [← he.1, ← he.2]
      refine (this.of (a' := s) (b' := x.1) rfl rfl rfl rfl).evs ?_
      rw [upHeads_append]; rfl
    · simp only [Except.ok.injEq, Prod.mk.injEq] at he
      rw [← he.1, ← he.2]; exact .refl s
  | rx1 =>
    have hreg := h.region (by rw [hp]; decide)
    have hii := hi .idle (by rw [hp]; decide)
    rw [hp] at he
    simp only [evtRx1R] at he
    split at he
    · simp only [bind, Except.bind] at he
      split at he
      · simp at he
      simp only [Except.ok.injEq, Prod.mk.injEq] at he
      rw [← he.1, ← he.2]; exact .none rfl rfl rfl
    · split at he
      · simp only [bind, Except.bind] at he
        split at he
        · simp at he
        next x hx =>
        simp only [Except.ok.injEq, Prod.mk.injEq] at he
        rw [← he.2] at hn
        have := handleDownlinkR_ups (s' := x.1) (ev := x.2) ha hm.1 o hii hreg _ hx (NoJoin.right (a := [_]) hn)
        rw [← he.1, ← he.2]
        exact (this.of (a' := s) (b' := x.1) rfl rfl rfl rfl).evs (upHeads_cons fun _ => by simp)
      · simp only [Except.ok.injEq, Prod.mk.injEq] at he
        rw [← he.1, ← he.2]; exact .refl s
  | rx2 =>
    have hreg := h.region (by rw [hp]; decide)
    have hii := hi .idle (by rw [hp]; decide)
    rw [hp] at he
    simp only [evtRx2R] at he
    split at he
    · exact (handleDownlinkR_ups ha hm.1 o hii hreg _ he hn).of rfl rfl rfl rfl
    · split at he
      · exact (handleDownlinkR_ups ha hm.1 o hii hreg _ he hn).of rfl rfl rfl rfl
      · simp only [Except.ok.injEq, Prod.mk.injEq] at he
        rw [← he.1, ← he.2]; exact .refl s

theorem stepR_ups {A : Inside} (ha : A.Valid) (hm : A.Within) {s s' : St} (h : Inv s) {op : Op} (hv : op.Valid) (ho : op.Mild)
    {r : Ret} {ev : List Ev} (hs : stepR E A s op = .ok (r, s', ev)) (hn : NoJoin ev) : Ups s ev s' := by
  by_cases he : ∃ m o, op = .event m o
  · obtain ⟨m, o, rfl⟩ := he
    simp only [stepR, bind, Except.bind] at hs
    split at hs
    · simp at hs
    next x hx =>
    simp only [Except.ok.injEq, Prod.mk.injEq] at hs
    rw [← hs.2.2] at hn
    rw [← hs.2.1, ← hs.2.2]
    exact evtHandlerR_ups (s' := x.1) (ev := x.2) ha hm o h m hx hn
  · have hc : op.Call := ⟨hv, fun m o hx => he ⟨m, o, hx⟩⟩
    have : stepR E A s op = step E s op := by
      cases op <;> first | rfl | exact absurd ⟨_, _, rfl⟩ he
    rw [this] at hs
    exact call_ups h hc ho hs

theorem Stretch.ups {s s' : St} {ev : List Ev} (h : Stretch E s ev s') (hi : Inv s) (hn : NoJoin ev) : Ups s ev s' ∧ Inv s' := by
  induction h with
  | nil => exact ⟨.refl s, hi⟩
  | snoc h ha hm hv ho hs ih =>
    obtain ⟨h1, h2⟩ := ih hn.left
    refine ⟨h1.trans (stepR_ups ha hm h2 hv ho hs hn.right), ?_⟩
    rcases stepR_ok (E := E) ha h2 hv with ⟨r', s', ev', e, hi'⟩ | ⟨-, e⟩
    · rw [hs] at e; simp only [Except.ok.injEq, Prod.mk.injEq] at e; rw [e.2.1]; exact hi'
    · rw [hs] at e; simp at e

end Uwan
