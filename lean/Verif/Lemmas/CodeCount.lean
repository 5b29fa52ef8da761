import Verif.Lemmas.CodeData

/-! # handle_data_msg: the frame counter -/

namespace Uwan.C

/-- The additional local variables of the branches which compute the new counter. -/
def CountPre (pre : Objs) : Prop := pre = [] ∨ (∃ a b, pre = [("f_cnt_diff", [a]), ("f_cnt_prev", [b])]) ∨ ∃ a b c, pre = [("f_cnt_hi", [c]), ("f_cnt_diff", [a]), ("f_cnt_prev", [b])]

section
variable (I : Input) (L k : Nat) (s : St) (x : Extra) (fs : List Objs) (w : World) (e mt snr rssi : Val) (port n : Int)

theorem data_words (t h a : Val) (fo ctrl : Int) (hfr : s.frame.length = 255) (c0 c1 : Byte) (b6 : byteAt s.frame 6 = c0) (b7 : byteAt s.frame 7 = c1) :
    exec ⟨host I, call (host I) Src.prog L (k + 6), L⟩ ((((((Src.handle_data_msg.body.after 13).after 2).after 4).after 5).after 3).upTo 2)
      ⟨enc s x, (("mtype", [t]) :: dataVars fs 6 noMic (.int .u8 fo) none16 (.int .u8 ctrl) a h) :: pktVars e mt snr rssi port n frameStart :: fs, w⟩ =
    .ok (.next, ⟨enc s x,
      (("mtype", [t]) :: dataVars fs 8 noMic (.int .u8 fo) (.int .u16 (or16 c0 c1).toNat) (.int .u8 ctrl) a h) :: pktVars e mt snr rssi port n frameStart :: fs, w⟩) := by
  unfold Src.handle_data_msg pktVars dataVars
  have := c0.isLt
  have := (or16 c0 c1).isLt
  crun [Stmt.upTo, Stmt.after, getObj_top2, putObj_top2, getObj_below, b6, b7, bits_byte, bits_shl, bits_ofBits_i32, or16_bits]

theorem data_count (t h a : Val) (fo ctrl : Int) (c : U16) (d : U32) (hd : s.session.fCntDown = d) :
    ∃ pre, CountPre pre ∧ exec ⟨host I, call (host I) Src.prog L (k + 6), L⟩ (((((((Src.handle_data_msg.body.after 13).after 2).after 4).after 5).after 3).after 2).upTo 1)
      ⟨enc s x, (("mtype", [t]) :: dataVars fs 8 noMic (.int .u8 fo) (.int .u16 c.toNat) (.int .u8 ctrl) a h) :: pktVars e mt snr rssi port n frameStart :: fs, w⟩ =
    .ok (match nextFCntDown d c with | none => .ret (some (.int .i32 11)) | some _ => .next, ⟨enc { s with session := { s.session with fCntDown := (nextFCntDown d c).getD d } } x,
      (pre ++ ("mtype", [t]) :: dataVars fs 8 noMic (.int .u8 fo) (.int .u16 c.toNat) (.int .u8 ctrl) a h) :: pktVars e mt snr rssi port n frameStart :: fs, w⟩) := by
  have := c.isLt
  have := d.isLt
  have hkeep : { s with session := { s.session with fCntDown := d } } = s := by rw [← hd]
  by_cases hz : d = 0
  · refine ⟨[], .inl rfl, ?_⟩
    subst hz
    have hn : nextFCntDown 0 c = some (c.setWidth 32) := rfl
    rw [hn]
    have hs : BitVec.ofInt 32 (c.toNat : Int) = c.setWidth 32 := bits_word c
    have hd' : (s.session.fCntDown.toNat : Int) = 0 := by rw [hd]; rfl
    unfold Src.handle_data_msg pktVars dataVars
    crun [Stmt.upTo, Stmt.after, getObj_top2, putObj_top2, getObj_below, hd', hs]
    rfl
  · have hd' : (s.session.fCntDown.toNat : Int) = (d.toNat : Int) := by rw [hd]
    have hz' : ¬ (d.toNat : Int) = 0 := by
      intro h; apply hz; apply BitVec.eq_of_toNat_eq; show d.toNat = 0; omega
    have hprev : Ty.u16.conv (d.toNat : Int) = ((d.setWidth 16 : U16).toNat : Int) := by
      unfold Ty.conv; simp
    have hp := (d.setWidth 16 : U16).isLt
    have hdiff : Ty.u16.conv ((c.toNat : Int) - ((d.setWidth 16 : U16).toNat : Int)) = ((c - d.setWidth 16 : U16).toNat : Int) := by
      unfold Ty.conv
      rw [BitVec.toNat_sub]
      simp only [Nat.reducePow, Int.natCast_emod, Int.natCast_add]
      omega
    generalize hdf : (c - d.setWidth 16 : U16) = df at *
    generalize hpv : (d.setWidth 16 : U16) = pv at *
    have := df.isLt
    by_cases h0 : df = 0
    · refine ⟨[("f_cnt_diff", [.int .u16 df.toNat]), ("f_cnt_prev", [.int .u16 pv.toNat])], .inr (.inl ⟨_, _, rfl⟩), ?_⟩
      have hn : nextFCntDown d c = none := by
        unfold nextFCntDown
        rw [if_neg hz, hpv]
        simp only [hdf]
        rw [if_pos h0]
      rw [hn]
      simp only [Option.getD_none]
      rw [hkeep]
      have h0' : (df.toNat : Int) = 0 := by rw [h0]; rfl
      unfold Src.handle_data_msg pktVars dataVars
      crun [Stmt.upTo, Stmt.after, getObj_top2, putObj_top2, getObj_below, hd', hz', hprev, hdiff, h0']
      rfl
    · have h0' : ¬ (df.toNat : Int) = 0 := by
        intro h; apply h0; apply BitVec.eq_of_toNat_eq; show df.toNat = 0; omega
      by_cases hle : df.toNat ≤ 16384
      · refine ⟨[("f_cnt_diff", [.int .u16 df.toNat]), ("f_cnt_prev", [.int .u16 pv.toNat])], .inr (.inl ⟨_, _, rfl⟩), ?_⟩
        have hn : nextFCntDown d c = some (d + df.setWidth 32) := by
          unfold nextFCntDown
          rw [if_neg hz, hpv]
          simp only [hdf]
          rw [if_neg h0, if_pos hle]
        rw [hn]
        have hle' : (df.toNat : Int) ≤ 16384 := by omega
        have hsum : ((d.toNat : Int) + (df.toNat : Int)) % 4294967296 = ((d + df.setWidth 32 : U32).toNat : Int) := by
          rw [BitVec.toNat_add]
          simp
        have hback : BitVec.ofInt 32 ((d + df.setWidth 32 : U32).toNat : Int) = d + df.setWidth 32 := bits_u32 _
        have := (d + df.setWidth 32 : U32).isLt
        unfold Src.handle_data_msg pktVars dataVars
        crun [Stmt.upTo, Stmt.after, getObj_top2, putObj_top2, getObj_below, hd', hz', hprev, hdiff, h0', hle', hsum, hback]
        rfl
      · refine ⟨[("f_cnt_hi", [.int .u32 (d &&& 0xffff0000).toNat]), ("f_cnt_diff", [.int .u16 df.toNat]), ("f_cnt_prev", [.int .u16 pv.toNat])], .inr (.inr ⟨_, _, _, rfl⟩), ?_⟩
        have hn : nextFCntDown d c = some ((d &&& 0xffff0000) + 0x10000 + c.setWidth 32) := by
          unfold nextFCntDown
          rw [if_neg hz, hpv]
          simp only [hdf]
          rw [if_neg h0, if_neg hle]
        rw [hn]
        have hle' : ¬ (df.toNat : Int) ≤ 16384 := by omega
        have hand : (ofBits .u32 (bits (d.toNat : Int) &&& bits 4294901760) : Int) = ((d &&& 0xffff0000 : U32).toNat : Int) := by
          rw [bits_u32]; rfl
        have hand' : (ofBits .u32 (d &&& bits 4294901760) : Int) = ((d &&& 0xffff0000 : U32).toNat : Int) := rfl
        generalize hq : (d &&& 0xffff0000 : U32) = q at *
        have hsum : (((q.toNat : Int) + 65536) % 4294967296 + (c.toNat : Int)) % 4294967296 = ((q + 0x10000 + c.setWidth 32 : U32).toNat : Int) := by
          rw [BitVec.toNat_add, BitVec.toNat_add]
          simp
        have hback : BitVec.ofInt 32 ((q + 0x10000 + c.setWidth 32 : U32).toNat : Int) = q + 0x10000 + c.setWidth 32 := bits_u32 _
        have := (q + 0x10000 + c.setWidth 32 : U32).isLt
        have := q.isLt
        unfold Src.handle_data_msg pktVars dataVars
        crun [Stmt.upTo, Stmt.after, getObj_top2, putObj_top2, getObj_below, hd', hz', hprev, hdiff, h0', hle', hand, hand', hsum, hback]
        rfl

end
end Uwan.C
