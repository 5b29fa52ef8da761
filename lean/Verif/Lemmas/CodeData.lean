import Verif.Lemmas.CodeJoined
import Verif.Lemmas.CodeDispatch

/-! # handle_data_msg -/

namespace Uwan.C

/-- The local variables of `handle_data_msg`. -/
abbrev dataVars (fs : List Objs) (o : Int) (mic : List Val) (fo fc ctrl addr h : Val) : Objs :=
  [("msg_min_size", [.int .u8 12]), ("buf", [frameStart]), ("offset", [.int .u8 o]), ("mic", mic), ("f_opts_len", [fo]), ("f_cnt", [fc]), ("f_ctrl", [ctrl]), ("dev_addr", [addr]), ("mhdr", [h]),
   ("pkt", [.ptr ⟨some fs.length, "pkt", 0⟩])]

abbrev none8 : Val := .uninit (some .u8)
abbrev none16 : Val := .uninit (some .u16)
abbrev none32 : Val := .uninit (some .u32)
abbrev noMic : List Val := List.replicate 4 (.uninit (some .u8))

section
variable (I : Input) (L k : Nat) (s : St) (x : Extra) (fs : List Objs) (w : World) (e mt snr rssi : Val) (port n : Int)

theorem data_short (h0 : 0 ≤ n) (h1 : n < 12) : exec ⟨host I, call (host I) Src.prog L (k + 6), L⟩ (Src.handle_data_msg.body.upTo 13)
      ⟨enc s x, [("pkt", [.ptr ⟨some fs.length, "pkt", 0⟩])] :: pktVars e mt snr rssi port n frameStart :: fs, w⟩ =
    .ok (.ret (some (.int .i32 7)), ⟨enc s x, dataVars fs 0 noMic none8 none16 none8 none32 none8 :: pktVars e mt snr rssi port n frameStart :: fs, w⟩) := by
  unfold Src.handle_data_msg pktVars dataVars
  crun [Stmt.upTo, getObj_top2, putObj_top2, getObj_below]

theorem data_sized (h0 : 12 ≤ n) (h1 : n < 256) : exec ⟨host I, call (host I) Src.prog L (k + 6), L⟩ (Src.handle_data_msg.body.upTo 13)
      ⟨enc s x, [("pkt", [.ptr ⟨some fs.length, "pkt", 0⟩])] :: pktVars e mt snr rssi port n frameStart :: fs, w⟩ =
    .ok (.next, ⟨enc s x, dataVars fs 0 noMic none8 none16 none8 none32 none8 :: pktVars e mt snr rssi port n frameStart :: fs, w⟩) := by
  unfold Src.handle_data_msg pktVars dataVars
  have hn : ¬ n < 12 := by omega
  crun [Stmt.upTo, getObj_top2, putObj_top2, getObj_below, hn]

theorem data_major (hfr : s.frame.length = 255) (m : Byte) (b0 : byteAt s.frame 0 = m) (hm : (m &&& 3) ≠ 0) : exec ⟨host I, call (host I) Src.prog L (k + 6), L⟩ ((Src.handle_data_msg.body.after 13).upTo 2)
      ⟨enc s x, dataVars fs 0 noMic none8 none16 none8 none32 none8 :: pktVars e mt snr rssi port n frameStart :: fs, w⟩ =
    .ok (.ret (some (.int .i32 8)), ⟨enc s x, dataVars fs 1 noMic none8 none16 none8 none32 (.int .u8 m.toNat) :: pktVars e mt snr rssi port n frameStart :: fs, w⟩) := by
  unfold Src.handle_data_msg pktVars dataVars
  have hs : ∀ m' : Mem World, shift (host I) .shr .i32 (m.toNat : Int) 0 m' = .ok (.int .i32 m.toNat, m') := by
    intro m'
    unfold shift
    rw [if_pos (by omega), if_pos rfl]
    simp
  have hz : ((m &&& 3).toNat : Int) ≠ 0 := by
    intro h; apply hm; apply BitVec.eq_of_toNat_eq; simpa using h
  have hlt := m.isLt
  crun [Stmt.upTo, Stmt.after, getObj_top2, putObj_top2, getObj_below, b0, hs, and3, hz]

theorem data_header (hfr : s.frame.length = 255) (m : Byte) (b0 : byteAt s.frame 0 = m) (hm : (m &&& 3) = 0) : exec ⟨host I, call (host I) Src.prog L (k + 6), L⟩ ((Src.handle_data_msg.body.after 13).upTo 2)
      ⟨enc s x, dataVars fs 0 noMic none8 none16 none8 none32 none8 :: pktVars e mt snr rssi port n frameStart :: fs, w⟩ =
    .ok (.next, ⟨enc s x, dataVars fs 1 noMic none8 none16 none8 none32 (.int .u8 m.toNat) :: pktVars e mt snr rssi port n frameStart :: fs, w⟩) := by
  unfold Src.handle_data_msg pktVars dataVars
  have hs : ∀ m' : Mem World, shift (host I) .shr .i32 (m.toNat : Int) 0 m' = .ok (.int .i32 m.toNat, m') := by
    intro m'
    unfold shift
    rw [if_pos (by omega), if_pos rfl]
    simp
  have hz : ((m &&& 3).toNat : Int) = 0 := by rw [hm]; rfl
  have hlt := m.isLt
  crun [Stmt.upTo, Stmt.after, getObj_top2, putObj_top2, getObj_below, b0, hs, and3, hz]

theorem data_type (m t : Byte) (ht : (m >>> 5) &&& 7 = t) : exec ⟨host I, call (host I) Src.prog L (k + 6), L⟩ (((Src.handle_data_msg.body.after 13).after 2).upTo 4)
      ⟨enc s x, dataVars fs 1 noMic none8 none16 none8 none32 (.int .u8 m.toNat) :: pktVars e mt snr rssi port n frameStart :: fs, w⟩ =
    .ok (if t ≠ 3 ∧ t ≠ 5 then .ret (some (.int .i32 8)) else .next, ⟨enc (if t ≠ 3 ∧ t ≠ 5 then s else markAck s t) x,
      (("mtype", [.int .u8 t.toNat]) :: dataVars fs 1 noMic none8 none16 none8 none32 (.int .u8 m.toNat)) :: pktVars e mt snr rssi port n frameStart :: fs, w⟩) := by
  unfold Src.handle_data_msg pktVars dataVars markAck
  have hlt := m.isLt
  have hlt := t.isLt
  have h3 : t = 3 ↔ (t.toNat : Int) = 3 := by
    constructor
    · rintro rfl; rfl
    · intro h; apply BitVec.eq_of_toNat_eq; show t.toNat = 3; omega
  have h5 : t = 5 ↔ (t.toNat : Int) = 5 := by
    constructor
    · rintro rfl; rfl
    · intro h; apply BitVec.eq_of_toNat_eq; show t.toNat = 5; omega
  by_cases c3 : (t.toNat : Int) = 3
  · have d3 := h3.mpr c3
    subst d3
    have e1 : (((3 : Byte).toNat : Nat) : Int) = 3 := rfl
    have e2 : ¬ ((3 : Byte) ≠ 3 ∧ (3 : Byte) ≠ 5) := by decide
    have e3 : ¬ (3 : Byte) = 5 := by decide
    rw [if_neg e2, if_neg e2, if_neg e3]
    crun [Stmt.upTo, Stmt.after, getObj_top2, putObj_top2, getObj_below, ht, e1]
  · by_cases c5 : (t.toNat : Int) = 5
    · have d3 := h5.mpr c5
      subst d3
      have e1 : (((5 : Byte).toNat : Nat) : Int) = 5 := rfl
      have e2 : ¬ ((5 : Byte) ≠ 3 ∧ (5 : Byte) ≠ 5) := by decide
      rw [if_neg e2, if_neg e2, if_pos rfl]
      crun [Stmt.upTo, Stmt.after, getObj_top2, putObj_top2, getObj_below, ht, e1]
    · have e2 : t ≠ 3 ∧ t ≠ 5 := ⟨fun h => c3 (h3.mp h), fun h => c5 (h5.mp h)⟩
      rw [if_pos e2, if_pos e2]
      crun [Stmt.upTo, Stmt.after, getObj_top2, putObj_top2, getObj_below, ht, c3, c5]

theorem data_addr (t h : Val) (hfr : s.frame.length = 255) (a0 a1 a2 a3 : Byte) (b1 : byteAt s.frame 1 = a0) (b2 : byteAt s.frame 2 = a1) (b3 : byteAt s.frame 3 = a2) (b4 : byteAt s.frame 4 = a3) :
    exec ⟨host I, call (host I) Src.prog L (k + 6), L⟩ ((((Src.handle_data_msg.body.after 13).after 2).after 4).upTo 5)
      ⟨enc s x, (("mtype", [t]) :: dataVars fs 1 noMic none8 none16 none8 none32 h) :: pktVars e mt snr rssi port n frameStart :: fs, w⟩ =
    .ok (if s.session.devAddr ≠ or32 a0 a1 a2 a3 then .ret (some (.int .i32 10)) else .next, ⟨enc s x,
      (("mtype", [t]) :: dataVars fs 5 noMic none8 none16 none8 (.int .u32 (or32 a0 a1 a2 a3).toNat) h) :: pktVars e mt snr rssi port n frameStart :: fs, w.did w.cmac (shiftMark a3)⟩) := by
  unfold Src.handle_data_msg pktVars dataVars
  have := a0.isLt
  have hiff : s.session.devAddr = or32 a0 a1 a2 a3 ↔ (s.session.devAddr.toNat : Int) = ((or32 a0 a1 a2 a3).toNat : Int) := by
    constructor
    · intro h; rw [h]
    · intro h; apply BitVec.eq_of_toNat_eq; omega
  have hor : (or24 a0 a1 a2 ||| BitVec.setWidth 32 a3 <<< 24 : BitVec 32) = or32 a0 a1 a2 a3 := rfl
  have := (or32 a0 a1 a2 a3).isLt
  have := s.session.devAddr.isLt
  by_cases hz : s.session.devAddr = or32 a0 a1 a2 a3
  · rw [if_neg (by simpa using hz)]
    have hz' := hiff.mp hz
    crun [Stmt.upTo, Stmt.after, getObj_top2, putObj_top2, getObj_below, b1, b2, b3, b4, bits_byte, bits_shl, bits_ofBits_i32, or24_bits, conv_u32_bits, conv_u32_bits_u, operand_bits, mark24, bits_u32, hor, hz']
  · rw [if_pos hz]
    have hz' := fun h => hz (hiff.mpr h)
    crun [Stmt.upTo, Stmt.after, getObj_top2, putObj_top2, getObj_below, b1, b2, b3, b4, bits_byte, bits_shl, bits_ofBits_i32, or24_bits, conv_u32_bits, conv_u32_bits_u, operand_bits, mark24, bits_u32, hor, hz']

theorem data_control (t h a : Val) (hfr : s.frame.length = 255) (hn : n < 256) (hn0 : 0 ≤ n) (ctrl fo : Byte) (b5 : byteAt s.frame 5 = ctrl) (hfo : ctrl &&& 0xf = fo) :
    exec ⟨host I, call (host I) Src.prog L (k + 6), L⟩ (((((Src.handle_data_msg.body.after 13).after 2).after 4).after 5).upTo 3)
      ⟨enc s x, (("mtype", [t]) :: dataVars fs 5 noMic none8 none16 none8 a h) :: pktVars e mt snr rssi port n frameStart :: fs, w⟩ =
    .ok (if n < 12 + fo.toNat then .ret (some (.int .i32 7)) else .next, ⟨enc s x,
      (("mtype", [t]) :: dataVars fs 6 noMic (.int .u8 fo.toNat) none16 (.int .u8 ctrl.toNat) a h) :: pktVars e mt snr rssi port n frameStart :: fs, w⟩) := by
  unfold Src.handle_data_msg pktVars dataVars
  have := fo.isLt
  by_cases hz : n < 12 + fo.toNat
  · rw [if_pos hz]
    crun [Stmt.upTo, Stmt.after, getObj_top2, putObj_top2, getObj_below, b5, and15_conv, hfo, hz]
  · rw [if_neg hz]
    crun [Stmt.upTo, Stmt.after, getObj_top2, putObj_top2, getObj_below, b5, and15_conv, hfo, hz]

end
end Uwan.C
