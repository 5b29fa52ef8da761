import Verif.Lemmas.Same
import Verif.Lemmas.SyncHist
import Verif.Spec.Payload

/-!
# Runs that differ in the messages sent
-/

namespace Uwan
open Spec

variable {E : Env}

/-! ### The first byte of the frame buffer -/

theorem blit_head {dst src y : Bytes} {off : Nat} (h : orOob (blit dst off src) = .ok y) :
    y.head? = if off = 0 then src.head?.or dst.head? else dst.head? := by
  unfold blit at h
  split at h
  · cases h
    cases off with
    | zero => cases src <;> simp
    | succ n =>
      cases dst with
      | nil => simp at *
      | cons a r => simp
  · cases h

theorem dataFinish_head {s s' : St} {pkt p' : DlPkt} {pld : Option Bytes} {buf : Bytes} {off : Nat} {ev : List Ev} {e : Err}
    (ho : off ≠ 0) (h : dataFinish E s pkt pld buf off = .ok (e, s', p', ev)) : s'.frame.head? = s.frame.head? := by
  unfold dataFinish at h
  simp only at h
  split at h
  · cases h; rfl
  · split at h
    · obtain ⟨fr, hb, h⟩ := bind_ok h
      cases h
      have := blit_head hb
      rw [if_neg ho] at this
      exact this
    · cases h; rfl

theorem handleDataMsg_head {bat : Nat → Byte} {s s' : St} {pkt p' : DlPkt} {ev : List Ev} {e : Err}
    (h : handleDataMsg E bat s pkt = .ok (e, s', p', ev)) : s'.frame.head? = s.frame.head? := by
  have hm : ∀ m : Byte, (markAck s m).frame = s.frame := fun m => by unfold markAck; split <;> rfl
  unfold handleDataMsg at h
  split at h
  · cases h
  split at h
  · cases h; rfl
  split at h
  rotate_left
  · cases h
  split at h
  · cases h; rfl
  simp only at h
  split at h
  · cases h; rfl
  split at h
  · cases h; rw [hm]
  split at h
  · cases h; rw [hm]
  split at h
  · cases h; rw [hm]
  obtain ⟨⟨e1, s1, p1, ev1⟩, hb, h⟩ := bind_ok h
  cases h
  unfold dataBody at hb
  obtain ⟨⟨s2, ev2⟩, hc, hb⟩ := bind_ok hb
  obtain ⟨⟨p2, pld⟩, ht, hb⟩ := bind_ok hb
  obtain ⟨⟨e3, s3, p3, ev3⟩, hf, hb⟩ := bind_ok hb
  cases hb
  rw [dataFinish_head (by omega) hf]
  have h2 := (put_dataCmds (f := []) (p := s.pp) hc).2.1
  rw [h2]
  exact congrArg _ (hm _)

theorem joinFinish_frame' {s s' : St} {pkt p' : DlPkt} {buf : Bytes} {c : Bool} {e : Err} {ev : List Ev}
    (h : joinFinish E s pkt buf c = .ok (e, s', p', ev)) : s'.frame = s.frame := by
  unfold joinFinish at h
  simp only at h
  split at h
  · cases h; rfl
  · obtain ⟨⟨s1, ev1⟩, ha, h⟩ := bind_ok h
    cases h
    unfold joinAccepted at ha
    split at ha
    · obtain ⟨c, -, ha⟩ := bind_ok ha
      cases ha
      have hj : ∀ x y, (joinRxParams s x y).frame = s.frame := fun x y => by
        unfold joinRxParams
        simp only
        split <;> split <;> rfl
      rename_i dl dly _ _
      exact hj dl dly
    · cases ha

theorem handleJoinMsg_head {s s' : St} {pkt p' : DlPkt} {buf : Bytes} {ev : List Ev} {e : Err} (hd : pkt.data = some buf)
    (hb : buf = [] ∨ s.frame.head? = buf.head?) (h : handleJoinMsg E s pkt = .ok (e, s', p', ev)) :
    s'.frame.head? = s.frame.head? := by
  unfold handleJoinMsg at h
  rw [hd] at h
  simp only at h
  split at h
  · cases h; rfl
  split at h
  · cases h
  rename_i mhdr body _
  split at h
  · cases h; rfl
  obtain ⟨⟨dec, ev1⟩, -, h⟩ := bind_ok h
  obtain ⟨fr, hf, h⟩ := bind_ok h
  obtain ⟨⟨e2, s2, p2, ev2⟩, hj, h⟩ := bind_ok h
  cases h
  rw [joinFinish_frame' hj]
  rcases hb with hb | hb
  · cases hb
  · rw [hb]; exact (blit_head hf).trans (by simp)

theorem handleDownlink_head {o : Oracle} {s s' : St} {err : Err} {ev : List Ev} (h : handleDownlink E o s err = .ok (s', ev)) :
    s'.frame.head? = (if Ev.readPacket ∈ ev then o.rxData.head?.or s.frame.head? else s.frame.head?) := by
  unfold handleDownlink at h
  by_cases he : err = .no
  · rw [if_pos he] at h
    simp only at h
    obtain ⟨fr, hf, h⟩ := bind_ok h
    obtain ⟨b, hb, h⟩ := bind_ok h
    have hfr : fr.head? = o.rxData.head?.or s.frame.head? := by
      have := blit_head hf
      rw [if_pos rfl] at this
      rw [this]
      cases o.rxData <;> simp
    split at h
    · obtain ⟨⟨e1, s1, p1, ev1⟩, hm, h⟩ := bind_ok h
      cases h
      rw [if_pos (by simp)]
      refine (handleJoinMsg_head rfl ?_ hm).trans hfr
      cases hx : o.rxData with
      | nil => exact .inl rfl
      | cons a r => right; rw [hx] at hfr; exact hfr
    · obtain ⟨⟨e1, s1, p1, ev1⟩, hm, h⟩ := bind_ok h
      cases h
      rw [if_pos (by simp)]
      exact (handleDataMsg_head hm).trans hfr
  · rw [if_neg he] at h
    cases h
    rw [if_neg (by simp)]

theorem step_head {s s' : St} {op : Op} {r : Ret} {ev : List Ev} (hi : Inv s) (h : step E s op = .ok (r, s', ev)) :
    s'.frame.head? = leadNext s.frame.head? ⟨s, op, r, ev, s'⟩ := by
  by_cases hc : op.isCfg = true
  · obtain ⟨rfl, hf⟩ := step_cfg hc h
    rw [hf.frame]
    cases op <;> first | rfl | simp [Op.isCfg] at hc
  cases op <;> simp only [Op.isCfg, not_true] at hc
  case init rg => cases h; rw [uwanInit_eq]; rfl
  case join r1 r2 =>
    obtain ⟨e, rfl, hj⟩ := step_join hi h
    cases hj with
    | state => rfl
    | channel => rfl
    | sent f d hp hg hf hd hd1 hd2 =>
      simp only [leadNext, joinEv, List.getLast?_append]
      rfl
  case send port pld c rnd =>
    obtain ⟨e, rfl, hj⟩ := step_send hi h
    cases hj with
    | state => rfl
    | channel => rfl
    | len => rfl
    | sent f d hp hg hf hl hn hd hd1 hd2 hlen =>
      simp only [leadNext, sentEv, List.getLast?_concat]
      have hb : (sentSt s d ((buildUplink E s port pld c).1 ++ s.frame.drop (buildUplink E s port pld c).1.length)).frame =
          (buildUplink E s port pld c).1 ++ s.frame.drop (buildUplink E s port pld c).1.length := by
        unfold sentSt adrHandleUplink
        simp only
        split <;> rfl
      rw [hb]
      rfl
  case timer id => obtain ⟨rfl, -⟩ := step_timer h; rfl
  case event m o =>
    simp only [step] at h
    obtain ⟨⟨s1, ev1⟩, he, h⟩ := bind_ok h
    cases h
    simp only [leadNext]
    unfold evtHandler at he
    split at he
    · cases he; rfl
    · cases he; rfl
    · unfold evtTx at he
      split at he
      · obtain ⟨pp, -, he⟩ := bind_ok he
        obtain ⟨⟨mc, ev2⟩, hm, he⟩ := bind_ok he
        cases he
        rw [if_neg]
        have : Ev.readPacket ∉ ev2 := by
          unfold macOnTxComplete at hm
          split at hm
          · split at hm
            · cases hm
            · split at hm <;> cases hm <;> simp
          · cases hm; simp
        simp [this]
      · cases he; rfl
    · unfold evtRx1 at he
      split at he
      · obtain ⟨d, -, he⟩ := bind_ok he
        cases he
        rw [if_neg (by simp)]
      · split at he
        · obtain ⟨⟨s2, ev2⟩, hd, he⟩ := bind_ok he
          cases he
          rw [handleDownlink_head hd]
          simp
        · cases he; rfl
    · unfold evtRx2 at he
      split at he
      · have := handleDownlink_head he
        exact this
      · split at he
        · have := handleDownlink_head he
          exact this
        · cases he; rfl

theorem leadNext_eq {h : Option Byte} {s s' t t' : St} {op op' : Op} {r r' : Ret} {ev : List Ev} (ho : OpLike op op') :
    leadNext h ⟨s, op, r, ev, s'⟩ = leadNext h ⟨t, op', r', ev, t'⟩ := by
  cases ho <;> rfl

theorem lead_hist {log : List Item} {s : St} (h : Hist E log s) : s.frame.head? = lead log := by
  induction h with
  | nil => rfl
  | snoc g hv hs ih =>
    unfold lead at *
    rw [List.foldl_append, ← ih]
    exact step_head (Hist.inv g) hs

theorem seg_twin_lead {log1 log2 : List Item} {s1 s2 : St} (h1 : Hist E log1 s1) (h2 : Hist E log2 s2) (ht : Twin s1 s2)
    (hl : lead log1 = lead log2) {seg : List Item} {s1' : St} (hs : Seg E s1 seg s1') :
    ∃ seg2 s2', Seg E s2 seg2 s2' ∧ seg2.map seen = seg.map seen ∧ Twin s1' s2' ∧ s1'.frame.head? = s2'.frame.head? := by
  induction hs with
  | nil => exact ⟨[], s2, .nil, rfl, ht, by rw [lead_hist h1, lead_hist h2, hl]⟩
  | @snoc log sa sb op r ev g hv hs ih =>
    obtain ⟨seg2, t, k1, k2, ⟨u, m, hu, hm⟩, kh⟩ := ih
    have hia := Hist.inv (Seg.hist h1 g)
    have hit := Hist.inv (Seg.hist h2 k1)
    have huh : u.frame.head? = sa.frame.head? := by rw [kh, hm]; rfl
    obtain ⟨u', k4, k5⟩ := step_like hia hu (fun _ _ _ => .inr huh) hs
    subst hm
    obtain ⟨op', m', k6, k7⟩ := step_mrk (m := m) (hu.inv hia) hit.chan k4
    refine ⟨_, _, .snoc k1 (k6.valid hv) k7, ?_, ⟨u', m', k5, rfl⟩, ?_⟩
    · rw [List.map_append, List.map_append, k2]
      simp only [List.map_cons, List.map_nil, seen, k6.blank]
    · rw [step_head hia hs, step_head hit k7, ← kh]
      exact leadNext_eq k6

/-! ### A message of the same length -/

theorem encLoop_ev (aes : Block → Block) (dir : Byte) (addr fcnt : U32) (n : Nat) (i : Byte) (a b : Bytes) (h : a.length = b.length) :
    (encLoop aes dir addr fcnt n i a).2 = (encLoop aes dir addr fcnt n i b).2 := by
  induction n generalizing i a b with
  | zero => cases a <;> cases b <;> simp [encLoop] at *
  | succ n ih =>
    cases a with
    | nil => cases b with
      | nil => rfl
      | cons => simp at h
    | cons x a =>
      cases b with
      | nil => simp at h
      | cons y b =>
        simp only [encLoop]
        rw [ih (i + 1) ((x :: a).drop 16) ((y :: b).drop 16) (by rw [List.length_drop, List.length_drop, h])]

theorem sealMsg_same {k : Nat} {hd x y : Bytes} {port : Byte} (hl : 8 ≤ hd.length) (hh : hd.headD 0 = 0x40 ∨ hd.headD 0 = 0x80)
    (hn : 8 + (hd.getD 5 0).toNat % 16 = hd.length) (hx : x.length = y.length) (hk : k ≤ x.length) :
    sealMsg k (hd ++ port :: x) = sealMsg k (hd ++ port :: y) := by
  have key : ∀ z : Bytes, z.length = x.length →
      sealMsg k (hd ++ port :: z) = hd ++ [port] ++ List.replicate x.length 0 := by
    intro z hz
    have h5 : (hd ++ port :: z).getD 5 0 = hd.getD 5 0 := by
      simp only [List.getD_eq_getElem?_getD]
      rw [List.getElem?_append_left (by omega)]
    have h0 : (hd ++ port :: z).headD 0 = hd.headD 0 := by
      cases hd with
      | nil => simp at hl
      | cons => rfl
    unfold sealMsg
    simp only
    rw [h5, h0, hn, if_pos ⟨hh, by simp; omega⟩]
    rw [show hd ++ port :: z = hd ++ [port] ++ z by simp]
    rw [List.take_append_of_le_length (by simp), List.take_of_length_le (by simp)]
    simp [hz]
    omega
  rw [key x rfl, key y hx.symm]

theorem buildUplink_same {s : St} (hq : s.mac.queue.length ≤ 15) {port : Byte} {a b : Bytes} {c : Bool} (h : a.length = b.length) :
    (buildUplink E s port a c).1.length = (buildUplink E s port b c).1.length ∧
    (buildUplink E s port a c).1.head? = (buildUplink E s port b c).1.head? ∧
    sealMsg 4 (buildUplink E s port a c).1 = sealMsg 4 (buildUplink E s port b c).1 ∧
    (buildUplink E s port a c).2.map sealEv = (buildUplink E s port b c).2.map sealEv := by
  have hlen := (buildUplink_length E hq port a c).trans ((by rw [h]) : _ = _) |>.trans (buildUplink_length E hq port b c).symm
  refine ⟨hlen, rfl, ?_⟩
  by_cases h0 : a.length ≠ 0
  rotate_left
  · have ha : a = [] := List.length_eq_zero_iff.1 (by omega)
    have hb : b = [] := List.length_eq_zero_iff.1 (by omega)
    rw [ha, hb]
    exact ⟨rfl, rfl⟩
  have h0' : b.length ≠ 0 := by omega
  unfold buildUplink
  simp only
  rw [if_pos h0, if_pos h0']
  have hg : (macGetPayload s.mac 15).1 = s.mac.queue := by unfold macGetPayload; rw [if_pos hq]
  rw [hg]
  generalize hhd : ([(if c = true then (4 : Byte) else 2) <<< 5, byteOf s.session.devAddr 0, byteOf s.session.devAddr 1, byteOf s.session.devAddr 2, byteOf s.session.devAddr 3,
     fCtrl s, byteOf s.session.fCntUp 0, byteOf s.session.fCntUp 1] ++ s.mac.queue : Bytes) = hd
  have h8 : 8 ≤ hd.length := by rw [← hhd]; simp
  have hh : hd.headD 0 = 0x40 ∨ hd.headD 0 = 0x80 := by
    rw [← hhd]; cases c
    · left; rfl
    · right; rfl
  have hn : 8 + (hd.getD 5 0).toNat % 16 = hd.length := by
    rw [← hhd]
    have := (fCtrl_spec s hq).1
    simp only [List.cons_append, List.nil_append, List.getD_cons_succ, List.getD_cons_zero, List.length_cons]
    omega
  have la := encryptPayload_length E s.session a s.session.appSKey 0
  have lb := encryptPayload_length E s.session b s.session.appSKey 0
  have hev : (encryptPayload E s.session a s.session.appSKey 0).2 = (encryptPayload E s.session b s.session.appSKey 0).2 := by
    unfold encryptPayload
    simp only
    rw [h, encLoop_ev _ _ _ _ _ _ a b h]
  generalize hea : encryptPayload E s.session a s.session.appSKey 0 = ea at *
  generalize heb : encryptPayload E s.session b s.session.appSKey 0 = eb at *
  have hm : ∀ m k, (calcMic E s.session m s.session.nwkSKey 0 k).1.length = 4 := fun m k => calcMic_length ..
  constructor
  · rw [List.append_assoc, List.append_assoc, List.cons_append, List.cons_append]
    exact sealMsg_same h8 hh hn (by simp only [List.length_append, hm]; omega)
      (by simp only [List.length_append, hm]; omega)
  · rw [hev, List.map_append, List.map_append]
    congr 1
    unfold calcMic
    simp only [List.map_cons, sealEv, List.map_nil, ↓reduceIte, List.cons_append, List.nil_append]
    rw [sealMsg_same h8 hh hn (by omega : ea.1.length = eb.1.length) (Nat.zero_le _)]
    rw [show (hd ++ port :: ea.1).length = (hd ++ port :: eb.1).length by simp; omega]

/-! ### The two runs -/

theorem Like.trans {s t u : St} (h : Like s t) (g : Like t u) : Like s u := by
  have hp : t.phase = s.phase := by rw [h.eq]; rfl
  refine ⟨?_, g.len.trans h.len, fun hn => ?_, fun ht => (g.tx (hp.trans ht)).trans (h.tx ht)⟩
  · have := g.eq
    rw [h.eq] at this
    exact this
  · obtain ⟨a1, a2, a3, a4⟩ := h.fixed hn
    obtain ⟨b1, b2, b3, b4⟩ := g.fixed (by rw [hp]; exact hn)
    exact ⟨b1.trans a1, b2.trans a2, b3.trans a3, b4.trans a4⟩

/-- States after the same calls with other messages. -/
structure Sealed (s t : St) : Prop where
  like : Like s t
  head : t.frame.head? = s.frame.head?

theorem sealOp_valid (op : Op) : (sealOp op).Valid ↔ op.Valid := by
  cases op <;> simp [sealOp, Op.Valid]

theorem step_sealed_same {s t s' : St} {op : Op} {r : Ret} {ev : List Ev} (hi : Inv s) (h : Sealed s t)
    (hs : step E s op = .ok (r, s', ev)) : ∃ t', step E t op = .ok (r, t', ev) ∧ Sealed s' t' := by
  obtain ⟨t', k1, k2⟩ := step_like hi h.like (fun _ _ _ => .inr h.head) hs
  refine ⟨t', k1, k2, ?_⟩
  rw [step_head hi hs, step_head (h.like.inv hi) k1, h.head]
  exact leadNext_eq (.same _)

/-- The same state, another message of the same length. -/
theorem send_sealed {s s' : St} {port : Byte} {a b : Bytes} {c : Bool} {rnd : Nat} {r : Ret} {ev : List Ev} (hi : Inv s)
    (hl : a.length = b.length) (hs : step E s (.send port a c rnd) = .ok (r, s', ev)) :
    ∃ s2 ev2, step E s (.send port b c rnd) = .ok (r, s2, ev2) ∧ Sealed s' s2 ∧ ev2.map sealEv = ev.map sealEv := by
  have keep : Sealed s s := ⟨⟨rfl, rfl, fun _ => .refl _, fun _ => rfl⟩, rfl⟩
  simp only [step, sendFrame, bind, Except.bind] at hs ⊢
  by_cases c1 : s.phase ≠ .idle
  · rw [if_pos c1] at hs ⊢
    cases hs; exact ⟨_, _, rfl, keep, rfl⟩
  rw [if_neg c1] at hs ⊢
  cases h1 : channelsGetNext s.chan rnd with
  | error u => rw [h1] at hs; cases hs
  | ok g =>
    rw [h1] at hs
    simp only at hs ⊢
    by_cases c0 : g = 0
    · rw [if_pos c0] at hs ⊢
      cases hs; exact ⟨_, _, rfl, keep, rfl⟩
    rw [if_neg c0] at hs ⊢
    rw [← hl]
    by_cases c2 : a.length > getMaxPayloadSize s
    · rw [if_pos c2] at hs ⊢
      cases hs; exact ⟨_, _, rfl, keep, rfl⟩
    rw [if_neg c2] at hs ⊢
    by_cases c3 : a.length = 0 ∧ s.mac.queue.length = 0
    · rw [if_pos c3] at hs ⊢
      cases hs; exact ⟨_, _, rfl, keep, rfl⟩
    rw [if_neg c3] at hs ⊢
    cases h2 : orOob (drTable (currentDr s)) with
    | error u => rw [h2] at hs; cases hs
    | ok d =>
      rw [h2] at hs
      simp only at hs ⊢
      generalize hq : ({ s.pp with sf := d.1, bw := d.2, invertedIq := false } : PktParams) = q at hs ⊢
      cases h3 : applyTxPower { s with pp := q } with
      | error u => rw [h3] at hs; cases hs
      | ok evp =>
        rw [h3] at hs
        simp only at hs ⊢
        obtain ⟨u1, u2, u3, u4⟩ := buildUplink_same (E := E) (s := { s with pp := q }) (port := port) (c := c) hi.queue hl
        generalize buildUplink E { s with pp := q } port a c = ua at hs u1 u2 u3 u4
        generalize buildUplink E { s with pp := q } port b c = ub at u1 u2 u3 u4 ⊢
        cases h4 : orOob (blit s.frame 0 ua.1) with
        | error u => rw [h4] at hs; cases hs
        | ok g1 =>
          rw [h4] at hs
          have h5 : ∃ g2, orOob (blit s.frame 0 ub.1) = .ok g2 ∧ g2.length = g1.length := by
            unfold blit at h4 ⊢
            rw [← u1]
            split at h4
            · next hb => rw [if_pos hb]; cases h4; exact ⟨_, rfl, by simp [u1]⟩
            · cases h4
          obtain ⟨g2, h5, h6⟩ := h5
          rw [h5]
          cases hs
          refine ⟨_, _, rfl, ?_, ?_⟩
          rotate_left
          · simp only [List.map_append, List.map_cons, List.map_nil, sealEv, u3, u4]
          have hg : g2.head? = g1.head? := by rw [blit_head h5, blit_head h4, u2]
          generalize hx : ({ s with frame := g1, pp := q, mac := (macGetPayload s.mac 15).2, session := { s.session with ackRequired := false, fCntUp := s.session.fCntUp + 1 }, rx1Delay := s.defaultRx1Delay, rx2Delay := s.defaultRx1Delay + 1000, phase := .tx } : St) = x
          have hx2 : ({ s with frame := g2, pp := q, mac := (macGetPayload s.mac 15).2, session := { s.session with ackRequired := false, fCntUp := s.session.fCntUp + 1 }, rx1Delay := s.defaultRx1Delay, rx2Delay := s.defaultRx1Delay + 1000, phase := .tx } : St) = put g2 q x := by
            rw [← hx]; rfl
          have ha : adrHandleUplink (put g2 q x) = put g2 q (adrHandleUplink x) := by
            unfold adrHandleUplink
            by_cases k : x.session.dr ≠ 0 ∧ (x.adr.ackCnt + 1).toNat > x.adr.ackLimit.toNat + x.adr.ackDelay.toNat
            · rw [if_pos k]; exact if_pos k
            · rw [if_neg k]; exact if_neg k
          have hb : (adrHandleUplink x).frame = x.frame ∧ (adrHandleUplink x).pp = x.pp ∧ (adrHandleUplink x).phase = x.phase := by
            unfold adrHandleUplink; simp only; split <;> exact ⟨rfl, rfl, rfl⟩
          have hy : Sealed (adrHandleUplink x) (adrHandleUplink (put g2 q x)) := by
            rw [ha]
            refine ⟨.mk' (by rw [hb.1, ← hx]; exact h6) (fun _ => by rw [hb.2.1, ← hx]; exact .refl _) (fun _ => by rw [hb.2.1, ← hx]), ?_⟩
            rw [hb.1, ← hx]
            exact hg
          subst hx
          exact hy

theorem step_sealed {s t s' : St} {op op2 : Op} {r : Ret} {ev : List Ev} (hi : Inv s) (h : Sealed s t) (ho : sealOp op2 = sealOp op)
    (hs : step E s op = .ok (r, s', ev)) :
    ∃ t' ev2, step E t op2 = .ok (r, t', ev2) ∧ Sealed s' t' ∧ ev2.map sealEv = ev.map sealEv ∧ (op2 = op → ev2 = ev) := by
  have same : op2 = op →
      ∃ t' ev2, step E t op2 = .ok (r, t', ev2) ∧ Sealed s' t' ∧ ev2.map sealEv = ev.map sealEv ∧ (op2 = op → ev2 = ev) := by
    rintro rfl
    obtain ⟨t', k1, k2⟩ := step_sealed_same hi h hs
    exact ⟨t', ev, k1, k2, rfl, fun _ => rfl⟩
  by_cases hop : op2 = op
  · exact same hop
  cases op with
  | send port a c rnd =>
    cases op2 with
    | send port2 b c2 rnd2 =>
      simp only [sealOp, Op.send.injEq] at ho
      obtain ⟨rfl, hl, rfl, rfl⟩ := ho
      have hl : a.length = b.length := by
        have := congrArg List.length hl
        simp at this
        exact this.symm
      obtain ⟨s2, ev2, k1, k2, k3⟩ := send_sealed hi hl hs
      obtain ⟨t', k4, k5⟩ := step_sealed_same hi h k1
      exact ⟨t', ev2, k4, ⟨k2.like.trans k5.like, k5.head.trans k2.head⟩, k3, fun e => absurd e hop⟩
    | _ => simp [sealOp] at ho
  | _ =>
    cases op2 with
    | send => simp [sealOp] at ho
    | _ => exact same ho

theorem hist_sealed {log : List Item} {s : St} (h : Hist E log s) (ops : List Op) (ho : ops.map sealOp = log.map fun it => sealOp it.op) :
    ∃ log2 s2, Hist E log2 s2 ∧ log2.map (·.op) = ops ∧ log2.map sealed = log.map sealed ∧
      (∀ p ∈ log2.zip log, p.1.op = p.2.op → p.1.ev = p.2.ev) ∧ Sealed s s2 := by
  induction h generalizing ops with
  | nil =>
    have : ops = [] := by simpa using ho
    subst this
    exact ⟨[], .boot, .nil, rfl, rfl, by simp, ⟨rfl, rfl, fun _ => .refl _, fun _ => rfl⟩, rfl⟩
  | @snoc log sa sb op r ev g hv hs ih =>
    rw [List.map_append, List.map_cons, List.map_nil] at ho
    obtain ⟨ops1, ops2, rfl, h1, h2⟩ := List.map_eq_append_iff.1 ho
    obtain ⟨op2, l2, rfl, h3, h4⟩ := List.map_eq_cons_iff.1 h2
    have : l2 = [] := by simpa using h4
    subst this
    obtain ⟨log2, t, k1, k2, k3, k8, k4⟩ := ih ops1 h1
    obtain ⟨t', ev2, k5, k6, k7, k9⟩ := step_sealed (Hist.inv g) k4 h3 hs
    have hv2 : op2.Valid := by rw [← sealOp_valid, h3, sealOp_valid]; exact hv
    refine ⟨_, t', .snoc k1 hv2 k5, ?_, ?_, ?_, k6⟩
    rotate_left 2
    · have hl : log2.length = log.length := by simpa using congrArg List.length k3
      rw [List.zip_append hl]
      intro p hp
      rcases List.mem_append.1 hp with hp | hp
      · exact k8 p hp
      · simp only [List.zip_cons_cons, List.zip_nil_left, List.mem_singleton] at hp
        subst hp
        exact k9
    · rw [List.map_append, k2]; rfl
    · rw [List.map_append, List.map_append, k3]
      simp only [List.map_cons, List.map_nil, sealed, h3, k7]

end Uwan
