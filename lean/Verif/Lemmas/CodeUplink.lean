import Verif.Lemmas.CodeSend
import Verif.Lemmas.Flow

/-! # uwan_send_frame: the rest of the frame -/

namespace Uwan.C

section
variable (I : Input) (L k : Nat) (s : St) (x : Extra) (fs : List Objs) (w : World)

/-- The local variables while the rest of the frame is written. -/
abbrev sendLocs (s : St) (f : U32) (o : Int) (p : Byte) (r : Ref) (n : Nat) (c : Bool) (a b : List Val) : Objs := ("f_ctrl", a) :: ("mtype", b) :: sendVars s f o p r n c

theorem send_mac (hq : s.mac.queue.length ≤ 15) (fr v : Bytes) (hfr : s.frame = over fr v) (hl : fr.length = 255) (hv : v.length = 6) (s0 : St) (f : U32) (p : Byte) (r : Ref) (n : Nat) (c : Bool) (a b : List Val) :
    exec ⟨host I, call (host I) Src.prog L (k + 3), L⟩ ((((Src.uwan_send_frame.body.after 18).after 7).after 7).upTo 3) ⟨enc s x, sendLocs s0 f 6 p r n c a b :: fs, w⟩ =
    .ok (.next, ⟨enc { s with frame := over fr (v ++ [byteOf s.session.fCntUp 0, byteOf s.session.fCntUp 1] ++ s.mac.queue), mac := { s.mac with queue := [] } } { x with macTail := s.mac.queue ++ x.macTail },
      sendLocs s0 f (8 + s.mac.queue.length) p r n c a b :: fs, w⟩) := by
  unfold Src.uwan_send_frame
  obtain ⟨f1, e1⟩ : ∃ f, f = over fr (v ++ [byteOf s.session.fCntUp 0]) := ⟨_, rfl⟩
  obtain ⟨f2, e2⟩ : ∃ f, f = over fr (v ++ [byteOf s.session.fCntUp 0] ++ [byteOf s.session.fCntUp 1]) := ⟨_, rfl⟩
  obtain ⟨f3, e3⟩ : ∃ f, f = over fr (v ++ [byteOf s.session.fCntUp 0] ++ [byteOf s.session.fCntUp 1] ++ s.mac.queue) := ⟨_, rfl⟩
  have h1 : s.frame.set 6 (byteOf s.session.fCntUp 0) = f1 := by rw [hfr, e1]; exact over_set _ _ _ _ hv.symm (by omega)
  have h2 : f1.set 7 (byteOf s.session.fCntUp 1) = f2 := by rw [e1, e2]; exact over_set _ _ _ _ (by simp [hv]) (by simp [hv, hl])
  have h3 : blit f2 8 s.mac.queue = some f3 := by rw [e2, e3]; exact over_blit _ _ _ _ (by simp [hv]) (by simp [hv, hl]; omega)
  have l0 : s.frame.length = 255 := by rw [hfr, over_length _ _ (by omega), hl]
  have l1 : f1.length = 255 := by rw [e1, over_length _ _ (by simp [hv, hl]), hl]
  have l2 : f2.length = 255 := by rw [e2, over_length _ _ (by simp [hv, hl]), hl]
  have hm : macGetPayload s.mac 15 = (s.mac.queue, { s.mac with queue := [] }) := by unfold macGetPayload; rw [if_pos hq]
  have hg := fun fs' => run_mac_get_payload (H := host I) (L := L) (k := k + 1) (s := { s with frame := f2 }) (x := x) (fs := fs') (w := w) (t := .i32) 8 (by omega) 15 (by omega) f3
    (by rw [hm]; exact h3) (show s.mac.queue.length < 256 by omega)
  dsimp only at hg
  simp only [hm, hq, if_true, Int.cast_ofNat_Int] at hg
  crun [Stmt.upTo, Stmt.after, h1, h2, hg]
  simp [e3]
  rfl

/-- What stands in the frame for the port and the payload. -/
def portPart (E : Env) (ss : Session) (port : Byte) (pld : Bytes) : Bytes := if pld.length ≠ 0 then port :: (encryptPayload E ss pld ss.appSKey 0).1 else []

theorem send_payload (hL : 16 < L) (hr : s.region.isSome = true) (fr v : Bytes) (hfr : s.frame = over fr v) (hl : fr.length = 255) (port : Byte) (pld : Bytes) (hv : v.length + 1 + pld.length ≤ 251) (rp : Ref) (hn : pld.length ≠ 0)
    (hld : ∀ s' f w, loads rp pld.length (⟨enc s' x, f :: fs, w⟩ : Mem World) = .ok (pld.map byteVal, ⟨enc s' x, f :: fs, w⟩)) (s0 : St) (f : U32) (c : Bool) (a b : List Val) :
    exec ⟨host I, call (host I) Src.prog L (k + 3), L⟩ (((((Src.uwan_send_frame.body.after 18).after 7).after 7).after 3).upTo 1) ⟨enc s x, sendLocs s0 f v.length port rp pld.length c a b :: fs, w⟩ =
    .ok (.next, ⟨enc { s with frame := over fr (v ++ port :: (encryptPayload I.env s.session pld s.session.appSKey 0).1) } x,
      sendLocs s0 f (v.length + 1 + pld.length : Nat) port rp pld.length c a b :: fs, w.did w.cmac (encryptPayload I.env s.session pld s.session.appSKey 0).2⟩) := by
  unfold Src.uwan_send_frame
  obtain ⟨f1, e1⟩ : ∃ f, f = over fr (v ++ [port]) := ⟨_, rfl⟩
  obtain ⟨f2, e2⟩ : ∃ f, f = over fr (v ++ [port] ++ pld) := ⟨_, rfl⟩
  have h1 : s.frame.set v.length port = f1 := by rw [hfr, e1]; exact over_set _ _ _ _ rfl (by omega)
  have h2 : putAt f1 (v.length + 1) pld = f2 := by rw [e1, e2]; exact over_put _ _ _ _ (by simp) (by simp; omega)
  have l0 : s.frame.length = 255 := by rw [hfr, over_length _ _ (by omega), hl]
  have l1 : f1.length = 255 := by rw [e1, over_length _ _ (by simp; omega), hl]
  have hen (fs' : List Objs) := run_encrypt_payload I L (k + 1) { s with frame := f2 } x fs' w hL hr (v.length + 1) (v ++ [port]) pld (fr.drop (v ++ [port] ++ pld).length) e2 (by simp) (by omega)
    ⟨none, "uw_session.app_s_key", 0⟩ s.session.appSKey 0 .u8 .i32 (fun f w => loads_app_s_key _ x _ w)
  have hel : (encryptPayload I.env s.session pld s.session.appSKey 0).1.length = pld.length := encryptPayload_length _ _ _ _ _
  have ht : ((v.length : Int) + 1).toNat = v.length + 1 := by omega
  dsimp only at hen
  simp only [fptr, Int.natCast_add, Int.natCast_one, show ((0 : Byte).toNat : Int) = 0 from rfl] at hen
  crun [Stmt.upTo, Stmt.after, h1, h2, hld, hen, ht, Int.toNat_natCast]
  generalize encryptPayload I.env s.session pld s.session.appSKey 0 = e at *
  simp [over, hel]
  rfl

theorem send_nothing (pld : Bytes) (hz : pld.length = 0) (rp : Ref) (s0 : St) (f : U32) (c : Bool) (o : Int) (port : Byte) (a b : List Val) :
    exec ⟨host I, call (host I) Src.prog L (k + 3), L⟩ (((((Src.uwan_send_frame.body.after 18).after 7).after 7).after 3).upTo 1) ⟨enc s x, sendLocs s0 f o port rp pld.length c a b :: fs, w⟩ =
    .ok (.next, ⟨enc s x, sendLocs s0 f o port rp pld.length c a b :: fs, w⟩) := by
  unfold Src.uwan_send_frame
  rw [hz]
  crun [Stmt.upTo, Stmt.after, Int.natCast_zero, Int.ofNat_zero]

theorem ofInt32_add (v n : U32) : BitVec.ofInt 32 (((v.toNat : Int) + n.toNat) % 4294967296) = v + n := by
  apply BitVec.eq_of_toNat_eq
  rw [BitVec.toNat_ofInt, BitVec.toNat_add]
  have := v.isLt
  have := n.isLt
  omega

theorem send_send (hr : s.region.isSome = true) (hd : s.session.dr < 4294967296) (fr msg : Bytes) (hf : s.frame = over fr msg) (hl : fr.length = 255) (hm : msg.length ≤ 251) (rp : Ref) (s0 : St) (f : U32) (n : Nat) (cf : Bool) (port : Byte) (a b : List Val) :
    ∃ c l, exec ⟨host I, call (host I) Src.prog L (k + 3), L⟩ (((((Src.uwan_send_frame.body.after 18).after 7).after 7).after 3).after 1) ⟨enc s x, sendLocs s0 f msg.length port rp n cf a b :: fs, w⟩ =
    .ok (.ret (some (.int .i32 0)), ⟨enc (adrHandleUplink { s with frame := over fr (msg ++ (calcMic I.env s.session msg s.session.nwkSKey 0 true).1), session := { s.session with fCntUp := s.session.fCntUp + 1 }, rx1Delay := s.defaultRx1Delay, rx2Delay := s.defaultRx1Delay + 1000, phase := .tx }) x,
      l :: fs, w.did c ((calcMic I.env s.session msg s.session.nwkSKey 0 true).2 ++ [.tx (msg ++ (calcMic I.env s.session msg s.session.nwkSKey 0 true).1)])⟩) := by
  unfold Src.uwan_send_frame
  obtain ⟨c, hc⟩ := run_frame_mic I L (k + 1) s x (sendLocs s0 f msg.length port rp n cf a b :: fs) w hr fr msg hf hl hm ⟨none, "uw_session.nwk_s_key", 0⟩ s.session.nwkSKey 0 true .u8 .i32
    (fun f w => loads_nwk_s_key s x _ w)
  refine ⟨c, sendLocs s0 f (msg.length + 4) port rp n cf a b, ?_⟩
  rw [← mic_flag] at hc
  have hml := mic_length I.env s.session msg s.session.nwkSKey 0 true
  generalize calcMic I.env s.session msg s.session.nwkSKey 0 true = mic at hc hml ⊢
  simp only [if_true, show ((0 : Byte).toNat : Int) = 0 from rfl] at hc
  obtain ⟨s1, hs1⟩ : ∃ s1, s1 = { s with frame := over fr (msg ++ mic.1), session := { s.session with fCntUp := s.session.fCntUp + 1 }, rx1Delay := s.defaultRx1Delay, rx2Delay := s.defaultRx1Delay + 1000, phase := .tx } := ⟨_, rfl⟩
  have hlen : (msg ++ mic.1).length = msg.length + 4 := by rw [List.length_append, hml]
  have hload : ∀ fs' w, loads ⟨none, "uw_frame", 0⟩ (msg.length + 4) (⟨enc s1 x, fs', w⟩ : Mem World) = .ok ((msg ++ mic.1).map byteVal, ⟨enc s1 x, fs', w⟩) := by
    intro fs' w
    have := over_load s1 x fs' w fr (msg ++ mic.1) (by rw [hs1]) (by omega)
    rw [hlen] at this
    exact this
  have ht : (((msg.length : Int) + 4) % 256).toNat = msg.length + 4 := by omega
  have hadr := fun fs' w => run_adr_handle_uplink (H := host I) (L := L) (k := k + 2) (s := s1) (x := x) (fs := fs') (w := w) (by rw [hs1]; exact hd)
  simp only [hs1] at hload hadr ⊢
  have n1 : BitVec.ofInt 32 ((↑(BitVec.toNat s.session.fCntUp) + 1) % 4294967296) = s.session.fCntUp + 1 := ofInt32_add _ 1
  have n2 : BitVec.ofInt 32 ((↑(BitVec.toNat s.defaultRx1Delay) + 1000) % 4294967296) = s.defaultRx1Delay + 1000 := ofInt32_add _ 1000
  crun [Stmt.after, hc, hr, hload, ht, hadr, n1, n2]
  simp [World.did, World.say]
  rfl

theorem max_payload_le (s : St) : getMaxPayloadSize s ≤ 222 ∧ (0 < getMaxPayloadSize s → getMaxPayloadSize s + s.mac.queue.length ≤ 222) := by
  have h2 : (maxAppPldSize (currentDr s)).getD 0 ≤ 222 := by
    cases e : maxAppPldSize (currentDr s) with
    | none => simp
    | some k => simpa using maxAppPldSize_le e
  constructor
  · by_cases h : 0 < getMaxPayloadSize s
    · have := getMaxPayloadSize_add h
      omega
    · omega
  · intro h
    have := getMaxPayloadSize_add h
    omega

/-- The frame of `uwan_send_frame` up to the frame options. -/
def sendHdr (s : St) (c : Bool) : Bytes := sendHead s c ++ [fCtrl s] ++ [byteOf s.session.fCntUp 0, byteOf s.session.fCntUp 1] ++ s.mac.queue

/-- The state before the payload is written. -/
def sendMid (s : St) (sf : Sf) (bw : Bw) (c : Bool) : St :=
  { sendReady s sf bw with frame := over s.frame (sendHdr s c), session := { s.session with ackRequired := false }, mac := { s.mac with queue := [] } }

theorem sendHdr_length (s : St) (c : Bool) : (sendHdr s c).length = 8 + s.mac.queue.length := by simp [sendHdr, sendHead]; omega

/-- Everything before the MIC is calculated. -/
theorem send_front (hL : 256 ≤ L) (hi : Inv s) (hp : s.phase = .idle) (f : U32) (hf : f ≠ 0) (w' : World)
    (hc : ∀ fs', call (host I) Src.prog L (k + 3) "channels_get_next" [] ⟨enc s x, fs', w⟩ = .ok (.int .u32 f.toNat, ⟨enc s x, fs', w'⟩))
    (port : Byte) (rp : Ref) (pld : Bytes) (c : Bool) (hn : ¬ pld.length > getMaxPayloadSize s) (he : ¬ (pld.length = 0 ∧ s.mac.queue.length = 0))
    (sf : Sf) (bw : Bw) (ht : drTable (currentDr s) = some (sf, bw)) (l : List Ev) (ha : applyTxPower s = .ok l)
    (hld : ∀ s' q f w, loads rp pld.length (⟨enc s' { x with macTail := q }, f :: fs, w⟩ : Mem World) = .ok (pld.map byteVal, ⟨enc s' { x with macTail := q }, f :: fs, w⟩)) :
    ∃ a b, exec ⟨host I, call (host I) Src.prog L (k + 3), L⟩ Src.uwan_send_frame.body ⟨enc s x, sendArgs port rp pld.length c :: fs, w⟩ =
    exec ⟨host I, call (host I) Src.prog L (k + 3), L⟩ (((((Src.uwan_send_frame.body.after 18).after 7).after 7).after 3).after 1)
      ⟨enc { sendMid s sf bw c with frame := over s.frame (sendHdr s c ++ portPart I.env s.session port pld) } { x with macTail := s.mac.queue ++ x.macTail },
        sendLocs s f (sendHdr s c ++ portPart I.env s.session port pld).length port rp pld.length c a b :: fs,
        w'.did w'.cmac ([.setFrequency f, .setup (sendReady s sf bw).pp] ++ l ++ (if pld.length ≠ 0 then (encryptPayload I.env s.session pld s.session.appSKey 0).2 else []))⟩ := by
  have hr := hi.region (by rw [hp]; decide)
  have hq := hi.queue
  have hm := max_payload_le s
  have hd := hi.dr
  have hdd := hi.defaultDr
  have hfl := hi.frame
  have x1 := exec_split _ _ _ _ _ (send_radio I L k s x fs w hp f hf w' hc (by omega) (by omega) (by omega) (by omega) port rp pld.length c hn he hr hi.txPower sf bw ht l ha)
  have x2 := exec_split _ _ _ _ _ (send_head I L k (sendReady s sf bw) x fs (w'.did w'.cmac ([.setFrequency f, .setup (sendReady s sf bw).pp] ++ l)) hi.frame s f port rp pld.length c)
  have x3 := exec_split _ _ _ _ _ (send_ctrl I L k { sendReady s sf bw with frame := over s.frame (sendHead s c) } x fs (w'.did w'.cmac ([.setFrequency f, .setup (sendReady s sf bw).pp] ++ l)) (show s.session.dr < 4294967296 by omega) hq
    s.frame (sendHead s c) rfl hi.frame rfl s f port rp pld.length c [.int .u8 (if c then 4 else 2)])
  have x4 := exec_split _ _ _ _ _ (send_mac I L k { sendReady s sf bw with frame := over s.frame (sendHead s c ++ [fCtrl s]), session := { s.session with ackRequired := false } } x fs (w'.did w'.cmac ([.setFrequency f, .setup (sendReady s sf bw).pp] ++ l)) hq
    s.frame (sendHead s c ++ [fCtrl s]) rfl hi.frame rfl s f port rp pld.length c [.int .u8 (fCtrl s).toNat] [.int .u8 (if c then 4 else 2)])
  have y4 := ((x1.trans x2).trans x3).trans x4
  have hh : (8 + s.mac.queue.length : Int) = ((sendHdr s c).length : Nat) := by rw [sendHdr_length]; omega
  by_cases hz : pld.length = 0
  · have x5 := exec_split _ _ _ _ _ (send_nothing I L k (sendMid s sf bw c) { x with macTail := s.mac.queue ++ x.macTail } fs (w'.did w'.cmac ([.setFrequency f, .setup (sendReady s sf bw).pp] ++ l)) pld hz rp s f c (sendHdr s c).length port
      [.int .u8 (fCtrl s).toNat] [.int .u8 (if c then 4 else 2)])
    refine ⟨[.int .u8 (fCtrl s).toNat], [.int .u8 (if c then 4 else 2)], ?_⟩
    have hpp : portPart I.env s.session port pld = [] := by unfold portPart; rw [if_neg (by omega)]
    have hpe : (if pld.length ≠ 0 then (encryptPayload I.env s.session pld s.session.appSKey 0).2 else []) = [] := if_neg (by omega)
    rw [hpp, hpe, List.append_nil, List.append_nil]
    rw [← hh] at x5 ⊢
    exact y4.trans x5
  · have x5 := exec_split _ _ _ _ _ (send_payload I L k (sendMid s sf bw c) { x with macTail := s.mac.queue ++ x.macTail } fs (w'.did w'.cmac ([.setFrequency f, .setup (sendReady s sf bw).pp] ++ l)) (by omega) hr s.frame (sendHdr s c) rfl hi.frame
      port pld (by rw [sendHdr_length]; omega) rp hz (fun s' f w => hld s' _ f w) s f c [.int .u8 (fCtrl s).toNat] [.int .u8 (if c then 4 else 2)])
    refine ⟨[.int .u8 (fCtrl s).toNat], [.int .u8 (if c then 4 else 2)], ?_⟩
    have hpp : portPart I.env s.session port pld = port :: (encryptPayload I.env s.session pld s.session.appSKey 0).1 := by unfold portPart; rw [if_pos hz]
    have hlen : (sendHdr s c ++ portPart I.env s.session port pld).length = (sendHdr s c).length + 1 + pld.length := by
      rw [hpp, List.length_append, List.length_cons, encryptPayload_length]; omega
    rw [hlen, hpp, if_pos hz]
    rw [← hh] at x5
    refine (y4.trans x5).trans ?_
    have hw : ∀ (a b : List Ev), (w'.did w'.cmac a).did (w'.did w'.cmac a).cmac b = w'.did w'.cmac (a ++ b) := by
      intro a b
      simp [World.did]
    rw [hw]
    rfl

/-- `uwan_send_frame` of the program text does what the model says. -/
theorem run_uwan_send_frame (hL : 256 ≤ L) (hi : Inv s) (r : Nat) (rs : List Nat) (hw : w.rands = r :: rs) (h1 : r < 2147483648) (port : Byte) (rp : Ref) (pld : Bytes) (hpl : pld.length < 256) (c : Bool)
    (hld : ∀ s' q f w, loads rp pld.length (⟨enc s' { x with macTail := q }, f :: fs, w⟩ : Mem World) = .ok (pld.map byteVal, ⟨enc s' { x with macTail := q }, f :: fs, w⟩))
    (e : Err) (s' : St) (ev : List Ev) (h : sendFrame I.env s port pld c r = .ok (e, s', ev)) :
    ∃ w' q, call (host I) Src.prog L (k + 4) "uwan_send_frame" [byteVal port, .ptr rp, .int .u8 pld.length, boolVal c] ⟨enc s x, fs, w⟩ = .ok (enumVal (Err.num e), ⟨enc s' { x with macTail := q }, fs, w'⟩) ∧
      w'.ev = w.ev ++ ev ∧ w'.bats = w.bats ∧ s'.mac.queue.length + q.length = s.mac.queue.length + x.macTail.length := by
  have hb : bindParams Src.uwan_send_frame.params [byteVal port, .ptr rp, .int .u8 pld.length, boolVal c] = .ok (sendArgs port rp pld.length c) := by
    have h1 : Ty.u8.conv (port.toNat : Int) = port.toNat := conv_u8_of _ (by omega) (by have := port.isLt; omega)
    have h2 : Ty.u8.conv (pld.length : Int) = pld.length := conv_u8_of _ (by omega) (by omega)
    unfold Src.uwan_send_frame
    simp only [bindParams, byteVal, assign_uninit, assign_ptr, h1, h2]
    cases c <;> rfl
  have hx : ∀ s, enc s x = enc s { x with macTail := x.macTail } := fun _ => rfl
  unfold sendFrame at h
  by_cases hp : s.phase = .idle
  · rw [if_neg (by simpa using hp)] at h
    have hr := hi.region (by rw [hp]; decide)
    have hq := hi.queue
    have hm := max_payload_le s
    have hd := hi.dr
    have hdd := hi.defaultDr
    cases hf : channelsGetNext s.chan r with
    | error e => rw [hf] at h; cases h
    | ok f =>
      rw [hf] at h
      have hc := fun fs' => run_channels_get_next I L k s x fs' w hL r rs hw h1 hi.chan.max_le f hf
      simp only [bind, Except.bind] at h
      by_cases hz : f = 0
      · subst hz
        cases h
        have := exec_split_ret _ _ _ _ _ _ (send_none I L k s x fs w hp port rp pld.length c hc)
        refine ⟨afterNext s.chan w, x.macTail, call_done find_uwan_send_frame _ _ _ _ _ _ hb this rfl, ?_, ?_, rfl⟩
        · unfold afterNext; split <;> simp
        · unfold afterNext; split <;> rfl
      · have h0 : s.chan.maxCount ≠ 0 := by
          intro h0
          unfold channelsGetNext at hf
          rw [if_pos h0] at hf
          cases hf
          exact hz rfl
        have hn : afterNext s.chan w = { w with rands := rs } := by
          unfold afterNext
          rw [if_neg h0, hw]
          rfl
        rw [hn] at hc
        rw [if_neg hz] at h
        by_cases hlong : pld.length > getMaxPayloadSize s
        · rw [if_pos hlong] at h
          cases h
          have := exec_split_ret _ _ _ _ _ _ (send_long I L k s x fs w hp f hz _ hc (by omega) (by omega) (by omega) port rp pld.length c hlong)
          exact ⟨{ w with rands := rs }, x.macTail, call_done find_uwan_send_frame _ _ _ _ _ _ hb this rfl, by simp, rfl, rfl⟩
        · rw [if_neg hlong] at h
          by_cases hemp : pld.length = 0 ∧ s.mac.queue.length = 0
          · rw [if_pos hemp] at h
            cases h
            obtain ⟨l, hl⟩ := send_empty I L k s x fs w hp f hz _ hc (by omega) (by omega) hemp.2 port rp c
            have := exec_split_ret _ _ _ _ _ _ hl
            rw [hemp.1] at hb ⊢
            exact ⟨{ w with rands := rs }, x.macTail, call_done find_uwan_send_frame _ _ _ _ _ _ hb this rfl, by simp, rfl, rfl⟩
          · rw [if_neg hemp] at h
            cases ht : drTable (currentDr s) with
            | none => rw [ht] at h; cases h
            | some d =>
              obtain ⟨sf, bw⟩ := d
              rw [ht] at h
              simp only [orOob] at h
              cases ha : applyTxPower s with
              | error e =>
                have ha' : applyTxPower { s with pp := { s.pp with sf := sf, bw := bw, invertedIq := false } } = .error e := ha
                rw [ha'] at h; cases h
              | ok l =>
                have ha' : applyTxPower { s with pp := { s.pp with sf := sf, bw := bw, invertedIq := false } } = .ok l := ha
                rw [ha'] at h
                obtain ⟨a, b, x1⟩ := send_front I L k s x fs w hL hi hp f hz _ hc port rp pld c hlong hemp sf bw ht l ha hld
                obtain ⟨msg, hmsg⟩ : ∃ msg, msg = sendHdr s c ++ portPart I.env s.session port pld := ⟨_, rfl⟩
                have hml : msg.length ≤ 251 := by
                  rw [hmsg, List.length_append, sendHdr_length]
                  unfold portPart
                  split
                  · rw [List.length_cons, encryptPayload_length]; omega
                  · simp; omega
                rw [← hmsg] at x1
                obtain ⟨cm, lo, x2⟩ := send_send I L k { sendMid s sf bw c with frame := over s.frame msg } { x with macTail := s.mac.queue ++ x.macTail } fs
                  (({ w with rands := rs } : World).did w.cmac ([.setFrequency f, .setup (sendReady s sf bw).pp] ++ l ++ (if pld.length ≠ 0 then (encryptPayload I.env s.session pld s.session.appSKey 0).2 else [])))
                  hr (show s.session.dr < 4294967296 by omega) s.frame msg rfl hi.frame hml rp s f pld.length c port a b
                have hh := call_done find_uwan_send_frame _ _ _ _ _ _ hb (x1.trans x2) rfl
                have hmic := mic_length I.env s.session msg s.session.nwkSKey 0 true
                have hj : buildUplink I.env { s with pp := { s.pp with sf := sf, bw := bw, invertedIq := false } } port pld c =
                    (msg ++ (calcMic I.env s.session msg s.session.nwkSKey 0 true).1,
                      (if pld.length ≠ 0 then (encryptPayload I.env s.session pld s.session.appSKey 0).2 else []) ++ (calcMic I.env s.session msg s.session.nwkSKey 0 true).2) := by
                  have hmm : (macGetPayload s.mac 15).1 = s.mac.queue := by unfold macGetPayload; rw [if_pos hq]
                  have hfc : fCtrl { s with pp := { s.pp with sf := sf, bw := bw, invertedIq := false } } = fCtrl s := rfl
                  unfold buildUplink
                  rw [hmsg]
                  unfold portPart sendHdr sendHead
                  by_cases hz : pld.length = 0
                  · simp [hz, hmm, hfc]
                  · simp [hz, hmm, hfc]
                have hbl := blit_over s.frame (msg ++ (calcMic I.env s.session msg s.session.nwkSKey 0 true).1) (by rw [List.length_append, hmic, hi.frame]; omega)
                have hmm : (macGetPayload s.mac 15).2 = { s.mac with queue := [] } := by unfold macGetPayload; rw [if_pos hq]
                simp only [hj, hbl, hmm] at h
                cases h
                refine ⟨_, _, hh, ?_, rfl, ?_⟩
                · simp [World.did]
                  exact ⟨rfl, rfl, rfl⟩
                · have hmq : ∀ s : St, (adrHandleUplink s).mac = s.mac := by
                    intro s
                    unfold adrHandleUplink
                    dsimp only
                    split <;> rfl
                  rw [hmq]
                  simp
  · rw [if_pos (by simpa using hp)] at h
    cases h
    have := exec_split_ret _ _ _ _ _ _ (send_busy I L k s x fs w hp port rp pld.length c)
    exact ⟨w, x.macTail, call_done find_uwan_send_frame _ _ _ _ _ _ hb this rfl, by simp, rfl, rfl⟩
end
end Uwan.C
