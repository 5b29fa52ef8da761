import Verif.Lemmas.CodeDataMsg

/-! # handle_downlink -/

namespace Uwan.C

theorem err_of_num (e : Err) : errOf? ((Err.num e : Nat) : Int) = some e := by cases e <;> rfl

theorem joinRx_mac (s : St) (dl dly : Byte) : (joinRxParams s dl dly).mac = s.mac := by
  unfold joinRxParams; simp only; split <;> split <;> rfl

theorem shr5_and7_int (b : Byte) : (ofBits .i32 (bits ((b.toNat : Int) / 2 ^ 5) &&& bits 7) : Int) = (((b >>> 5) &&& 7).toNat : Int) := by
  have h : ∀ b : Byte, (ofBits .i32 (bits ((b.toNat : Int) / 2 ^ 5) &&& bits 7) : Int) = (((b >>> 5) &&& 7).toNat : Int) := by decide +kernel
  exact h b

section
variable (I : Input) (L k : Nat) (s : St) (x : Extra) (fs : List Objs) (w : World)

theorem at_byte (b : Byte) : BitVec.ofInt 8 (b.toNat : Int) = b := by
  rw [BitVec.ofInt_natCast, BitVec.ofNat_toNat, BitVec.setWidth_eq]

/-- The downlink callback gets the packet. -/
theorem host_downlink_callback (e mt : Val) (t t' : Ty) (er : Err) (b : Byte) (pkt : DlPkt) (d : Val) (n : Nat) (hd : DataAt s.frame d n pkt.data) :
    call (host I) Src.prog L (k + 1) "hal.downlink_callback" [.int t (Err.num er : Nat), .int t' b.toNat, .ptr ⟨some fs.length, "pkt", 0⟩]
      ⟨enc s x, pktVars e mt (i8Val pkt.snr) (.int .i16 pkt.rssi.toInt) pkt.fPort.toNat (n : Nat) d :: fs, w⟩ =
    .ok (.null, ⟨enc s x, pktVars e mt (i8Val pkt.snr) (.int .i16 pkt.rssi.toInt) pkt.fPort.toNat (n : Nat) d :: fs, w.say (.downlink er b pkt)⟩) := by
  rw [call_lib (host I) find_hal_downlink_callback]
  show M.bind (ofOption .stuck (errOf? _)) (fun e => M.bind (readPkt ⟨some fs.length, "pkt", 0⟩) fun p => emitV (.downlink e (BitVec.ofInt 8 b.toNat) p)) _ = _
  rw [err_of_num, at_byte]
  show M.bind (readPkt ⟨some fs.length, "pkt", 0⟩) (fun p => emitV (.downlink er b p)) _ = _
  obtain ⟨m, hm⟩ : ∃ m : Mem World, m = ⟨enc s x, pktVars e mt (i8Val pkt.snr) (.int .i16 pkt.rssi.toInt) pkt.fPort.toNat (n : Nat) d :: fs, w⟩ := ⟨_, rfl⟩
  have hg : ∀ o, getObj m (some fs.length) o = Objs.get o (pktVars e mt (i8Val pkt.snr) (.int .i16 pkt.rssi.toInt) pkt.fPort.toNat (n : Nat) d) := fun o => by rw [hm]; exact getObj_top _ _ _ _ _
  have hfld : ∀ f t v, Objs.get ("pkt" ++ f) (pktVars e mt (i8Val pkt.snr) (.int .i16 pkt.rssi.toInt) pkt.fPort.toNat (n : Nat) d) = some [.int t v] → field ⟨some fs.length, "pkt", 0⟩ f m = .ok (v, m) := by
    intro f t v h
    refine field_of _ _ _ t v ?_
    rw [loadRef_apply, hg, h]
    rfl
  have h1 := hfld ".size" .u8 n rfl
  have h2 := hfld ".f_port" .u8 pkt.fPort.toNat rfl
  have h3 := hfld ".rssi" .i16 pkt.rssi.toInt rfl
  have h4 := hfld ".snr" .i8 pkt.snr.toInt rfl
  have hread : readPkt ⟨some fs.length, "pkt", 0⟩ m = .ok (pkt, m) := by
    rcases hd with ⟨hd, hn, ho⟩ | ⟨pre, l, post, hf, hd, hn, ho⟩
    · have h5 : loadRef ⟨some fs.length, "pkt" ++ ".data", 0⟩ m = .ok (.null, m) := by
        rw [loadRef_apply, hg, hd]; rfl
      simp only [readPkt, bind_andThen, h5, h1, h2, h3, h4, andThen_ok]
      rw [hn]
      show Except.ok (DlPkt.mk none _ _ _, m) = _
      rw [at_byte, BitVec.ofInt_toInt, BitVec.ofInt_toInt, ← ho]
    · have h5 : loadRef ⟨some fs.length, "pkt" ++ ".data", 0⟩ m = .ok (fptr (pre.length : Nat), m) := by
        rw [loadRef_apply, hg, hd]; rfl
      have h6 : readBytes ⟨none, "uw_frame", (pre.length : Nat)⟩ l.length m = .ok (l, m) := by
        refine read_bytes ?_
        have := loads_bytes (m := m) (fr := none) (o := "uw_frame") (l := s.frame) (off := pre.length) (n := l.length) (by rw [hm]; rfl) (by rw [hf]; simp)
        rw [hf, List.append_assoc, List.drop_left, List.take_left] at this
        exact this
      simp only [readPkt, bind_andThen, h5, h1, h2, h3, h4, andThen_ok]
      unfold fptr
      simp only [Int.toNat_natCast]
      rw [hn, bind_andThen, h6]
      show Except.ok (DlPkt.mk (some l) _ _ _, m) = _
      rw [at_byte, BitVec.ofInt_toInt, BitVec.ofInt_toInt, ← ho]
  rw [← hm, bind_andThen, hread]
  subst hm
  rfl

/-- The radio writes the packet into the frame buffer. -/
theorem host_read_packet (hfr : s.frame.length = 255) (e mt snr rssi : Val) (hs : ∃ v, snr = .int .i8 v) (hr : ∃ v, rssi = .int .i16 v) (port : Int) :
    call (host I) Src.prog L (k + 1) "radio.read_packet" [.ptr ⟨some fs.length, "pkt", 0⟩] ⟨enc s x, pktVars e mt snr rssi port 255 frameStart :: fs, w⟩ =
    .ok (.null, ⟨enc { s with frame := over s.frame (I.rx.take 255) } x, pktVars e mt (i8Val I.snr) (.int .i16 I.rssi.toInt) port ((I.rx.take 255).length : Nat) frameStart :: fs, w.say .readPacket⟩) := by
  rw [call_lib (host I) find_radio_read_packet]
  show M.bind (radioRead I ⟨some fs.length, "pkt", 0⟩) (fun _ => emitV .readPacket) _ = _
  have hlen : (I.rx.take 255).length ≤ 255 := by rw [List.length_take]; omega
  obtain ⟨v, rfl⟩ := hs
  obtain ⟨u, rfl⟩ := hr
  have h1 : loadRef ⟨some fs.length, "pkt" ++ ".data", 0⟩ (⟨enc s x, pktVars e mt (.int .i8 v) (.int .i16 u) port 255 frameStart :: fs, w⟩ : Mem World) = .ok (frameStart, ⟨enc s x, pktVars e mt (.int .i8 v) (.int .i16 u) port 255 frameStart :: fs, w⟩) := by
    rw [loadRef_apply, getObj_top]; rfl
  have h2 : field ⟨some fs.length, "pkt", 0⟩ ".size" (⟨enc s x, pktVars e mt (.int .i8 v) (.int .i16 u) port 255 frameStart :: fs, w⟩ : Mem World) = .ok (255, ⟨enc s x, pktVars e mt (.int .i8 v) (.int .i16 u) port 255 frameStart :: fs, w⟩) := by
    refine field_of _ _ _ .u8 255 ?_
    rw [loadRef_apply, getObj_top]; rfl
  have h3 := stores_frame s x (pktVars e mt (.int .i8 v) (.int .i16 u) port 255 frameStart :: fs) w 0 (I.rx.take 255) (over s.frame (I.rx.take 255)) (by omega) (blit_over _ _ (by omega))
  rw [bind_andThen]
  simp only [radioRead, bind_andThen, h1, andThen_ok]
  show andThen (M.bind _ _ _) _ = _
  simp only [bind_andThen, h2, andThen_ok, writeBytes]
  rw [show ((255 : Int).toNat) = 255 from rfl, h3]
  have hc : ∀ n : Nat, n ≤ 255 → Ty.u8.conv (n : Int) = n := by
    intro n hn
    unfold Ty.conv
    simp
    omega
  generalize (I.rx.take 255).length = N at *
  unfold i8Val
  generalize over s.frame (I.rx.take 255) = f
  have s0 : -128 ≤ I.snr.toInt := by have := BitVec.le_toInt I.snr; simpa using this
  have s1 : I.snr.toInt < 128 := by have := @BitVec.toInt_lt 8 I.snr; simpa using this
  have r0 : -32768 ≤ I.rssi.toInt := by have := BitVec.le_toInt I.rssi; simpa using this
  have r1 : I.rssi.toInt < 32768 := by have := @BitVec.toInt_lt 16 I.rssi; simpa using this
  have hcr : Ty.i16.conv I.rssi.toInt = I.rssi.toInt := by
    exact Int.bmod_eq_of_le (by omega) (by omega)
  unfold pktVars
  crun [hcr, show "pkt" ++ ".size" = "pkt.size" from rfl, show "pkt" ++ ".rssi" = "pkt.rssi" from rfl, show "pkt" ++ ".snr" = "pkt.snr" from rfl, hc]
  rfl

theorem downlink_open (er : Nat) : exec ⟨host I, call (host I) Src.prog L (k + 7), L⟩ (Src.handle_downlink.body.upTo 7) ⟨enc s x, [("err", [.int .u32 er])] :: fs, w⟩ =
    .ok (.next, ⟨enc s x, pktVars (.int .u32 er) (.int .u32 0) (.int .i8 0) (.int .i16 0) 0 0 .null :: fs, w⟩) := by
  unfold Src.handle_downlink pktVars
  crun [Stmt.upTo]

theorem downlink_read (hr : s.region.isSome = true) (hfr : s.frame.length = 255) : exec ⟨host I, call (host I) Src.prog L (k + 7), L⟩ ((Src.handle_downlink.body.after 7).upTo 2)
      ⟨enc s x, pktVars (.int .u32 0) (.int .u32 0) (.int .i8 0) (.int .i16 0) 0 0 .null :: fs, w⟩ =
    .ok (.next, ⟨enc { s with frame := over s.frame (I.rx.take 255) } x, pktVars (.int .u32 0) (.int .u32 0) (i8Val I.snr) (.int .i16 I.rssi.toInt) 0 ((I.rx.take 255).length : Nat) frameStart :: fs, (w.say .readPacket).say .sleep⟩) := by
  have hq := host_read_packet I L (k + 6) s x fs w hfr (.int .u32 0) (.int .u32 0) (.int .i8 0) (.int .i16 0) ⟨_, rfl⟩ ⟨_, rfl⟩ 0
  unfold Src.handle_downlink
  unfold pktVars at *
  crun [Stmt.upTo, Stmt.after, hr, hq]

theorem downlink_none (hr : s.region.isSome = true) (er : Nat) (h : er ≠ 0) (hlt : er < 12) : exec ⟨host I, call (host I) Src.prog L (k + 7), L⟩ ((Src.handle_downlink.body.after 7).upTo 3)
      ⟨enc s x, pktVars (.int .u32 er) (.int .u32 0) (.int .i8 0) (.int .i16 0) 0 0 .null :: fs, w⟩ =
    .ok (.next, ⟨enc s x, pktVars (.int .u32 er) (.int .u32 0) (.int .i8 0) (.int .i16 0) 0 0 .null :: fs, w.say .sleep⟩) := by
  have h' : ¬ (er : Int) = 0 := by omega
  unfold Src.handle_downlink pktVars
  crun [Stmt.upTo, Stmt.after, hr, h']

theorem downlink_join (s' : St) (x' : Extra) (w' : World) (er : Err) (snr rssi : Val) (n : Nat) (b t : Byte) (hfr : s.frame.length = 255) (hb : byteAt s.frame 0 = b) (ht : (b >>> 5) &&& 7 = t) (hj : s.joinState = true)
    (port n' : Int) (d : Val)
    (hc : call (host I) Src.prog L (k + 7) "handle_join_msg" [.ptr ⟨some fs.length, "pkt", 0⟩] ⟨enc s x, pktVars (.int .u32 0) (.int .u32 t.toNat) snr rssi 0 n frameStart :: fs, w⟩ =
      .ok (enumVal (Err.num er), ⟨enc s' x', pktVars (.int .u32 0) (.int .u32 t.toNat) snr rssi port n' d :: fs, w'⟩)) :
    exec ⟨host I, call (host I) Src.prog L (k + 7), L⟩ (((Src.handle_downlink.body.after 7).after 2).upTo 1)
      ⟨enc s x, pktVars (.int .u32 0) (.int .u32 0) snr rssi 0 n frameStart :: fs, w⟩ =
    .ok (.next, ⟨enc s' x', pktVars (enumVal (Err.num er)) (.int .u32 t.toNat) snr rssi port n' d :: fs, w'⟩) := by
  have htl := t.isLt
  have her : Err.num er < 12 := by cases er <;> decide
  unfold Src.handle_downlink
  unfold pktVars at *
  unfold enumVal at *
  crun [Stmt.upTo, Stmt.after, hb, shr5_and7_int, ht, hj, hc]

theorem downlink_data (s' : St) (x' : Extra) (w' : World) (er : Err) (snr rssi : Val) (n : Nat) (b t : Byte) (hfr : s.frame.length = 255) (hb : byteAt s.frame 0 = b) (ht : (b >>> 5) &&& 7 = t) (hj : s.joinState = false)
    (snr' : Val) (port n' : Int) (d : Val)
    (hc : call (host I) Src.prog L (k + 7) "handle_data_msg" [.ptr ⟨some fs.length, "pkt", 0⟩] ⟨enc s x, pktVars (.int .u32 0) (.int .u32 t.toNat) snr rssi 0 n frameStart :: fs, w⟩ =
      .ok (enumVal (Err.num er), ⟨enc s' x', pktVars (.int .u32 0) (.int .u32 t.toNat) snr' rssi port n' d :: fs, w'⟩)) :
    exec ⟨host I, call (host I) Src.prog L (k + 7), L⟩ (((Src.handle_downlink.body.after 7).after 2).upTo 1)
      ⟨enc s x, pktVars (.int .u32 0) (.int .u32 0) snr rssi 0 n frameStart :: fs, w⟩ =
    .ok (.next, ⟨enc s' x', pktVars (enumVal (Err.num er)) (.int .u32 t.toNat) snr' rssi port n' d :: fs, w'⟩) := by
  have htl := t.isLt
  have her : Err.num er < 12 := by cases er <;> decide
  unfold Src.handle_downlink
  unfold pktVars at *
  unfold enumVal at *
  crun [Stmt.upTo, Stmt.after, hb, shr5_and7_int, ht, hj, hc]

theorem downlink_end (hr : s.region.isSome = true) (er : Err) (b : Byte) (pkt : DlPkt) (d : Val) (n : Nat) (hd : DataAt s.frame d n pkt.data) :
    exec ⟨host I, call (host I) Src.prog L (k + 7), L⟩ (((Src.handle_downlink.body.after 7).after 2).after 1)
      ⟨enc s x, pktVars (enumVal (Err.num er)) (.int .u32 b.toNat) (i8Val pkt.snr) (.int .i16 pkt.rssi.toInt) pkt.fPort.toNat (n : Nat) d :: fs, w⟩ =
    .ok (.next, ⟨enc { s with joinState := false } x, pktVars (enumVal (Err.num er)) (.int .u32 b.toNat) (i8Val pkt.snr) (.int .i16 pkt.rssi.toInt) pkt.fPort.toNat (n : Nat) d :: fs, w.say (.downlink er b pkt)⟩) := by
  have hq := host_downlink_callback I L (k + 6) { s with joinState := false } x fs w (enumVal (Err.num er)) (.int .u32 b.toNat) .u32 .u32 er b pkt d n hd
  unfold Src.handle_downlink
  unfold pktVars enumVal i8Val at *
  crun [Stmt.upTo, Stmt.after, hr, hq]

end
end Uwan.C
