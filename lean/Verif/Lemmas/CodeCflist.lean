import Verif.Lemmas.CodeMask

/-! # `region_86x_handle_cflist` -/

namespace Uwan.C

section
variable {ω : Type} (H : Host ω) (L k : Nat) (s : St) (x : Extra) (fs : List Objs) (w : ω) (t : Ty)

/-- One round of the loop over the channel list. -/
def cfRound (first : Nat) (g : Nat → Byte) (c : Chan) (i : Nat) : Chan :=
  if or24 (g (3 * i)) (g (3 * i + 1)) (g (3 * i + 2)) = 0 then (enableChannel c (i + first) false).2
  else (setChannel c (i + first) (or24 (g (3 * i)) (g (3 * i + 1)) (g (3 * i + 2)) * 100)).2

theorem cfRound_bound (first : Nat) (g : Nat → Byte) (c : Chan) (i : Nat) (h : c.maxCount < 256) : (cfRound first g c i).maxCount < 256 := by
  unfold cfRound
  split
  · exact enable_bound _ _ _ h
  · exact set_bound _ _ _ h

def cfRounds (first : Nat) (g : Nat → Byte) (c : Chan) (n : Nat) : Chan := (List.range n).foldl (cfRound first g) c

theorem cfRounds_succ (first : Nat) (g : Nat → Byte) (c : Chan) (n : Nat) : cfRounds first g c (n + 1) = cfRound first g (cfRounds first g c n) n := by
  unfold cfRounds
  rw [List.range_succ, List.foldl_append]
  rfl

theorem cfRounds_bound (first : Nat) (g : Nat → Byte) (c : Chan) (n : Nat) (h : c.maxCount < 256) : (cfRounds first g c n).maxCount < 256 := by
  induction n with
  | zero => exact h
  | succ n ih => rw [cfRounds_succ]; exact cfRound_bound _ _ _ _ ih

theorem cflistLoop_rounds (first : Nat) (hf : first < 200) (l : Bytes) (h : 16 ≤ l.length) (c : Chan) :
    cflistLoop first 5 0 l c = .ok (cfRounds first (fun i => byteAt l i) c 5) := by
  match l, h with
  | a0 :: a1 :: a2 :: a3 :: a4 :: a5 :: a6 :: a7 :: a8 :: a9 :: a10 :: a11 :: a12 :: a13 :: a14 :: a15 :: l, _ =>
    have e0 : (0 + first) % 256 = 0 + first := by omega
    have e1 : (1 + first) % 256 = 1 + first := by omega
    have e2 : (2 + first) % 256 = 2 + first := by omega
    have e3 : (3 + first) % 256 = 3 + first := by omega
    have e4 : (4 + first) % 256 = 4 + first := by omega
    simp only [cflistLoop, Nat.zero_add, Nat.reduceAdd, e1, e2, e3, e4]
    rw [Nat.zero_add] at e0
    rw [e0]
    simp only [cfRounds_succ]
    unfold cfRounds cfRound
    simp only [Nat.zero_add]
    rfl

theorem run_enable_channel_int (hL : 16 < L) (i : Int) (hi0 : 0 ≤ i) (h : i < 256) (v : Val) (b : Bool) (hv : assign (.uninit (some .bool)) v = .ok (boolVal b)) (hm : s.chan.maxCount < 256) :
    call H Src.prog L (k + 1) "uwan_enable_channel" [.int t i, v] ⟨enc s x, fs, w⟩ =
    .ok (enumVal (Err.num (enableChannel s.chan i.toNat b).1), ⟨enc { s with chan := (enableChannel s.chan i.toNat b).2 } x, fs, w⟩) := by
  obtain ⟨n, rfl⟩ := Int.eq_ofNat_of_zero_le hi0
  rw [Int.toNat_natCast]
  exact run_uwan_enable_channel H L k s x fs w t hL n (by omega) v b hv hm

theorem mul100 (f : U32) : BitVec.ofInt 32 ((f.toNat : Int) * 100) = f * 100 := by
  apply BitVec.eq_of_toNat_eq
  rw [BitVec.toNat_ofInt, BitVec.toNat_mul]
  have : (100 : U32).toNat = 100 := rfl
  rw [this]
  omega

/-- The frame of the function in round `i`. -/
def cfFrame (p : Int) (first : Nat) (g : Nat → Byte) (j : Nat) (q : Nat) : Nat → Objs
  | 0 => [("idx", [.int .i32 j]), ("cflist_type", [.int .u8 0]), ("cflist", [.ptr ⟨none, "uw_frame", p + (3 * q : Nat)⟩]), ("ch_first", [.int .u8 first])]
  | i + 1 => [("freq", [.int .u32 (or24 (g (3 * i)) (g (3 * i + 1)) (g (3 * i + 2))).toNat]), ("idx", [.int .i32 j]), ("cflist_type", [.int .u8 0]),
      ("cflist", [.ptr ⟨none, "uw_frame", p + (3 * q : Nat)⟩]), ("ch_first", [.int .u8 first])]

theorem run_handle_cflist (hL : 16 < L) (p : Int) (h0 : 0 ≤ p) (h1 : p + 16 ≤ s.frame.length) (first : Nat) (hf : first < 16) (hm : s.chan.maxCount < 256) :
    call H Src.prog L (k + 3) "region_86x_handle_cflist" [.ptr ⟨none, "uw_frame", p⟩, .int t first] ⟨enc s x, fs, w⟩ =
    .ok (.null, ⟨enc { s with chan := if byteAt s.frame (p + 15) = 0 then cfRounds first (fun i => byteAt s.frame (p + i)) s.chan 5 else s.chan } x, fs, w⟩) := by
  rw [call_fun H find_region_86x_handle_cflist]
  by_cases hz : byteAt s.frame (p + 15) = 0
  · rw [if_pos hz]
    have key : ∀ g : Nat → Byte, (∀ i < 16, byteAt s.frame (p + (i : Nat)) = g i) →
        exec ⟨H, call H Src.prog L (k + 2), L⟩ (.loop (.bin .lt (.load (.loc "idx")) (.lit .i32 5)) (.seq (.expr (.post .add (.loc "idx")))
                (.expr (.asgOp .add (.loc "cflist") (.lit .i32 3))))
              (.seq (.decl "freq" ([.uninit (some .u32)]))
                (.seq (.expr (.asg (.loc "freq") (.bin .or (.bin .or (.load (.elem (.load (.loc "cflist")) (.lit .i32 0))) (.bin .shl (.load (.elem (.load (.loc "cflist")) (.lit .i32 1))) (.lit .i32 8))) (.bin .shl (.load (.elem (.load (.loc "cflist")) (.lit .i32 2))) (.lit .i32 16)))))
                  (.ite (.bin .eq (.load (.loc "freq")) (.lit .i32 0))
                    (.expr (.call (.fn "uwan_enable_channel") (.cons (.bin .add (.load (.loc "idx")) (.load (.loc "ch_first"))) (.cons (.lit .i32 0) (.nil)))))
                    (.expr (.call (.fn "uwan_set_channel") (.cons (.bin .add (.load (.loc "idx")) (.load (.loc "ch_first"))) (.cons (.bin .mul (.load (.loc "freq")) (.lit .i32 100)) (.nil)))))))))
          ⟨enc s x, cfFrame p first g 0 0 0 :: fs, w⟩ = .ok (.next, ⟨enc { s with chan := cfRounds first g s.chan 5 } x, cfFrame p first g 5 5 5 :: fs, w⟩) := by
      intro g hg
      rw [exec_loop]
      refine Eq.trans (congrArg _ ?_) (iter_count _ _ _ 5
        (fun i => ⟨enc { s with chan := cfRounds first g s.chan i } x, cfFrame p first g i i i :: fs, w⟩)
        (fun i => ⟨enc { s with chan := cfRounds first g s.chan (i + 1) } x, cfFrame p first g i i (i + 1) :: fs, w⟩)
        ?_ ?_ ?_ ?_ L (by omega))
      · rfl
      · intro i hi
        cases i <;> unfold cfFrame
        · crun []
        · crun [Int.natCast_add, Int.natCast_one]
      · intro i hi
        have hb := cfRounds_bound first g s.chan i hm
        rw [cfRounds_succ]
        generalize cfRounds first g s.chan i = c at *
        have g0 := hg (3 * i) (by omega)
        have g1 := hg (3 * i + 1) (by omega)
        have g2 := hg (3 * i + 2) (by omega)
        have e1 : p + ((3 * i : Nat) : Int) + 1 = p + ((3 * i + 1 : Nat) : Int) := by omega
        have e2 : p + ((3 * i : Nat) : Int) + 2 = p + ((3 * i + 2 : Nat) : Int) := by omega
        have hlt := or24_lt (g (3 * i)) (g (3 * i + 1)) (g (3 * i + 2))
        have en : ((i : Int) + (first : Int)).toNat = i + first := by omega
        unfold cfRound
        by_cases hz : or24 (g (3 * i)) (g (3 * i + 1)) (g (3 * i + 2)) = 0
        · rw [if_pos hz]
          have hz' : (or24 (g (3 * i)) (g (3 * i + 1)) (g (3 * i + 2))).toNat = 0 := by rw [hz]; rfl
          have he := fun k fs => run_enable_channel_int H L k { s with chan := c } x fs w .i32 hL ((i : Int) + (first : Int)) (by omega) (by omega) (.int .i32 0) false rfl hb
          cases i <;> unfold cfFrame <;> crun [e1, e2, g0, g1, g2, bits_byte, bits_shl, bits_ofBits_i32, or24_bits, conv_u32_bits, he, en]
        · rw [if_neg hz]
          have hz' : (or24 (g (3 * i)) (g (3 * i + 1)) (g (3 * i + 2))).toNat ≠ 0 := by
            intro h
            exact hz (BitVec.eq_of_toNat_eq h)
          have he := fun k fs f t' h0 h1 => run_set_channel_int H L k { s with chan := c } x fs w .i32 hL ((i : Int) + (first : Int)) (by omega) (by omega) f t' h0 h1 hb
          cases i <;> unfold cfFrame <;> crun [e1, e2, g0, g1, g2, bits_byte, bits_shl, bits_ofBits_i32, or24_bits, conv_u32_bits, he, en, mul100]
      · intro i hi
        refine ⟨.next, ?_⟩
        have e3 : p + ((3 * i : Nat) : Int) + 3 = p + ((3 * (i + 1) : Nat) : Int) := by omega
        unfold cfFrame
        crun [e3]
        rfl
      · unfold cfFrame
        crun []
    have key := key (fun i => byteAt s.frame (p + i)) (fun i _ => rfl)
    unfold Src.region_86x_handle_cflist
    unfold cfFrame at key
    have hz' : ((byteAt s.frame (p + 15)).toNat : Int) = 0 := by rw [hz]; rfl
    simp only [Nat.mul_zero, Int.natCast_zero, Int.add_zero] at key
    crun [Int.reduceSub, hz', key]
  · rw [if_neg hz]
    have hz' : (byteAt s.frame (p + 15)).toNat ≠ 0 := by
      intro h
      exact hz (BitVec.eq_of_toNat_eq h)
    unfold Src.region_86x_handle_cflist
    crun [Int.reduceSub]

/-- `handle_cflist` of the two regions. -/
theorem run_eu868_handle_cflist (hL : 16 < L) (p : Int) (h0 : 0 ≤ p) (h1 : p + 16 ≤ s.frame.length) (hm : s.chan.maxCount < 256) :
    call H Src.prog L (k + 4) "eu868_handle_cflist" [.ptr ⟨none, "uw_frame", p⟩] ⟨enc s x, fs, w⟩ =
    .ok (.null, ⟨enc { s with chan := if byteAt s.frame (p + 15) = 0 then cfRounds 3 (fun i => byteAt s.frame (p + i)) s.chan 5 else s.chan } x, fs, w⟩) := by
  rw [call_fun H find_eu868_handle_cflist]
  unfold Src.eu868_handle_cflist
  have h := fun fs => run_handle_cflist H L k s x fs w .i32 hL p h0 h1 3 (by omega) hm
  have e : ((3 : Nat) : Int) = 3 := rfl
  rw [e] at h
  crun [h]

theorem run_ru864_handle_cflist (hL : 16 < L) (p : Int) (h0 : 0 ≤ p) (h1 : p + 16 ≤ s.frame.length) (hm : s.chan.maxCount < 256) :
    call H Src.prog L (k + 4) "ru864_handle_cflist" [.ptr ⟨none, "uw_frame", p⟩] ⟨enc s x, fs, w⟩ =
    .ok (.null, ⟨enc { s with chan := if byteAt s.frame (p + 15) = 0 then cfRounds 2 (fun i => byteAt s.frame (p + i)) s.chan 5 else s.chan } x, fs, w⟩) := by
  rw [call_fun H find_ru864_handle_cflist]
  unfold Src.ru864_handle_cflist
  have h := fun fs => run_handle_cflist H L k s x fs w .i32 hL p h0 h1 2 (by omega) hm
  have e : ((2 : Nat) : Int) = 2 := rfl
  rw [e] at h
  crun [h]

/-- What the model does with the channel list. -/
theorem handleCflist_rounds (r : Region) (l : Bytes) (h : 16 ≤ l.length) (c : Chan) :
    handleCflist r l c = .ok (if byteAt l 15 = 0 then cfRounds r.cflistFirst (fun i => byteAt l i) c 5 else c) := by
  unfold handleCflist
  have hl : l[15]? = some (byteAt l 15) := by
    unfold byteAt
    rw [List.getD_eq_getElem?_getD]
    rw [List.getElem?_eq_getElem (by omega : 15 < l.length)]
    have : (15 : Int).toNat = 15 := rfl
    rw [this, List.getElem?_eq_getElem (by omega : 15 < l.length)]
    rfl
  rw [hl]
  show (if byteAt l 15 ≠ 0 then .ok c else cflistLoop r.cflistFirst 5 0 l c) = _
  by_cases hz : byteAt l 15 = 0
  · rw [if_pos hz, if_neg (by simp [hz]), cflistLoop_rounds _ (by cases r <;> decide) l h]
  · rw [if_neg hz, if_pos hz]

end
end Uwan.C
