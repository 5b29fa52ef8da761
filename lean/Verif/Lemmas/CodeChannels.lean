import Verif.Lemmas.CodeSetters

/-! # The functions of `src/channels.c` do what the model says -/

namespace Uwan.C

section
variable {ω : Type}

/-- A counting loop: `J i` is the memory before round `i`. -/
theorem iter_count (cond : M ω Bool) (step body : M ω Out) (n : Nat) (J K : Nat → Mem ω) (hc : ∀ i < n, cond (J i) = .ok (true, J i))
    (hb : ∀ i < n, body (J i) = .ok (.next, K i)) (hs : ∀ i < n, ∃ o, step (K i) = .ok (o, J (i + 1))) (he : cond (J n) = .ok (false, J n)) (L : Nat) (hL : n < L) :
    iter cond step body L (J 0) = .ok (.next, J n) := by
  suffices h : ∀ d i, i + d = n → ∀ L, d < L → iter cond step body L (J i) = .ok (.next, J n) from h n 0 (by omega) L hL
  intro d
  induction d with
  | zero =>
    intro i hi L hL
    obtain ⟨L, rfl⟩ : ∃ l, L = l + 1 := ⟨L - 1, by omega⟩
    have : i = n := by omega
    subst this
    simp only [iter, M.bind, he, M.pure, Bool.false_eq_true, if_false]
  | succ d ih =>
    intro i hi L hL
    obtain ⟨L, rfl⟩ : ∃ l, L = l + 1 := ⟨L - 1, by omega⟩
    obtain ⟨o, ho⟩ := hs i (by omega)
    simp only [iter, M.bind, hc i (by omega), hb i (by omega), ho, if_true]
    exact ih (i + 1) (by omega) L (by omega)
end

section
variable {ω : Type} (H : Host ω) (m : Mem ω) (s : St) (x : Extra) (fs : List Objs) (w : ω)

@[csem] theorem nat_succ (i : Nat) : ((i : Int) + 1).toNat = i + 1 := by omega
@[csem] theorem nat_div8 (i : Nat) : ((i : Int) / 8).toNat = i / 8 := by omega
@[csem] theorem nat_mod8 (i : Nat) : ((i : Int) % 8).toNat = i % 8 := by omega

@[csem high] theorem shl_one (b : Int) (h0 : 0 ≤ b) (h1 : b < 31) : shift H .shl .i32 1 b m = .ok (.int .i32 (2 ^ b.toNat), m) := by
  have h2 : (2 : Int) ^ b.toNat ≤ 2147483647 := by
    have : (2 : Nat) ^ b.toNat ≤ 2 ^ 30 := Nat.pow_le_pow_right (by omega) (by omega)
    have h3 : ((2 ^ b.toNat : Nat) : Int) = (2 : Int) ^ b.toNat := by simp
    omega
  rw [shift_shl_i32 H m 1 b (by omega) (by rw [Int.one_mul]; exact h2) h0 (by omega), Int.one_mul]

theorem bit_facts : ∀ b : Fin 256, ∀ k : Fin 8, (Ty.u8.conv (ofBits .i32 (bits ((b.val : Nat) : Int) ||| bits (2 ^ k.val))) = ((BitVec.ofNat 8 b.val ||| 1#8 <<< k.val).toNat : Int)) ∧
    (Ty.u8.conv (ofBits .i32 (bits ((b.val : Nat) : Int) &&& bits (ofBits .i32 (~~~ bits (2 ^ k.val))))) = ((BitVec.ofNat 8 b.val &&& ~~~ (1#8 <<< k.val)).toNat : Int)) ∧
    (eqb (ofBits .i32 (bits ((b.val : Nat) : Int) &&& bits (2 ^ k.val))) 0 = !((BitVec.ofNat 8 b.val &&& 1#8 <<< k.val) != 0)) := by
  decide +kernel

@[csem high] theorem bit_set (b : Byte) (i : Nat) : Ty.u8.conv (ofBits .i32 (bits (b.toNat : Int) ||| bits (2 ^ (i % 8)))) = ((b ||| 1#8 <<< (i % 8)).toNat : Int) := by
  have h := (bit_facts ⟨b.toNat, b.isLt⟩ ⟨i % 8, by omega⟩).1
  simpa using h
@[csem high] theorem bit_clear (b : Byte) (i : Nat) :
    Ty.u8.conv (ofBits .i32 (bits (b.toNat : Int) &&& bits (ofBits .i32 (~~~ bits (2 ^ (i % 8)))))) = ((b &&& ~~~ (1#8 <<< (i % 8))).toNat : Int) := by
  have h := (bit_facts ⟨b.toNat, b.isLt⟩ ⟨i % 8, by omega⟩).2.1
  simp only [BitVec.ofNat_toNat, BitVec.setWidth_eq] at h
  exact h
@[csem high] theorem bit_test (b : Byte) (i : Nat) : eqb (ofBits .i32 (bits (b.toNat : Int) &&& bits (2 ^ (i % 8)))) 0 = !((b &&& 1#8 <<< (i % 8)) != 0) := by
  have h := (bit_facts ⟨b.toNat, b.isLt⟩ ⟨i % 8, by omega⟩).2.2
  simp only [BitVec.ofNat_toNat, BitVec.setWidth_eq] at h
  exact h

@[csem high] theorem cell_mask (c : Mask) (i : Nat) (h : i < 16) : cell m ((i : Int) / 8) (some [.int .u8 c.b0.toNat, .int .u8 c.b1.toNat]) =
    .ok (.int .u8 (c.byte (i / 8)).toNat, m) := by
  have : i / 8 = 0 ∨ i / 8 = 1 := by omega
  rw [cell_of (t := .u8) (n := (c.byte (i / 8)).toNat) (by omega)]
  rw [nat_div8]
  rcases this with h | h <;> rw [h] <;> rfl

@[csem high] theorem setCell_mask (c : Mask) (i : Nat) (h : i < 16) (v : Val) : setCell m none "uw_channels_mask" ((i : Int) / 8) v (some [.int .u8 c.b0.toNat, .int .u8 c.b1.toNat]) =
    setTo m none "uw_channels_mask" (i / 8) [.int .u8 c.b0.toNat, .int .u8 c.b1.toNat] (assign (.int .u8 (c.byte (i / 8)).toNat) v) := by
  have : i / 8 = 0 ∨ i / 8 = 1 := by omega
  rw [setCell_of (old := .int .u8 (c.byte (i / 8)).toNat) (by omega), nat_div8]
  rw [nat_div8]
  rcases this with h | h <;> rw [h] <;> rfl

@[csem high] theorem put_mask (i : Nat) (h : i < 16) (a b c : Byte) :
    (enc s x).put "uw_channels_mask" ([Val.int .u8 a.toNat, .int .u8 b.toNat].set (i / 8) (.int .u8 c.toNat)) =
    enc { s with chan := { s.chan with mask := Mask.setByte ⟨a, b⟩ (i / 8) c } } x := by
  have : i / 8 = 0 ∨ i / 8 = 1 := by omega
  rcases this with h | h <;> rw [h] <;> exact (rfl)

@[csem high] theorem cell_chan (c : Chan) (i : Nat) (h : i < 16) : cell m (i : Int) (some (c.freq.toList.map u32Val)) = .ok (.int .u32 (c.freqAt i).toNat, m) := by
  rw [cell_of (t := .u32) (n := (c.freqAt i).toNat) (by omega)]
  rw [Int.toNat_natCast, List.getElem?_map]
  have hl : i < c.freq.toList.length := by simp [h]
  rw [List.getElem?_eq_getElem hl]
  unfold Chan.freqAt
  simp [h, u32Val]

@[csem high] theorem setCell_chan (c : Chan) (i : Nat) (h : i < 16) (v : Val) : setCell m none "uw_channels" (i : Int) v (some (c.freq.toList.map u32Val)) =
    setTo m none "uw_channels" i (c.freq.toList.map u32Val) (assign (.int .u32 (c.freqAt i).toNat) v) := by
  rw [setCell_of (old := .int .u32 (c.freqAt i).toNat) (by omega), Int.toNat_natCast]
  rw [Int.toNat_natCast, List.getElem?_map]
  have hl : i < c.freq.toList.length := by simp [h]
  rw [List.getElem?_eq_getElem hl]
  unfold Chan.freqAt
  simp [h, u32Val]

@[csem high] theorem put_chan (i : Nat) (v : Vector U32 16) (n : Int) (h0 : 0 ≤ n) (h1 : n < 4294967296) : (enc s x).put "uw_channels" ((v.toList.map u32Val).set i (.int .u32 n)) =
    enc { s with chan := { s.chan with freq := v.setIfInBounds i (BitVec.ofInt 32 n) } } x := by
  rw [← u32Val_ofInt n h0 h1, ← List.map_set]
  have h := put_uw_channels s x (v.setIfInBounds i (BitVec.ofInt 32 n))
  rw [Vector.toList_setIfInBounds] at h
  exact h

end

variable {ω : Type} (H : Host ω) (L k : Nat) (s : St) (x : Extra) (fs : List Objs) (w : ω) (t : Ty)

theorem run_channel_is_exist (i : Nat) (h : i < 256) : call H Src.prog L (k + 1) "channel_is_exist" [.int t i] ⟨enc s x, fs, w⟩ =
    .ok (boolVal (channelIsExist s.chan i), ⟨enc s x, fs, w⟩) := by
  rw [call_fun H find_channel_is_exist]
  unfold Src.channel_is_exist channelIsExist
  by_cases hi : 16 ≤ i
  · rw [if_pos hi]
    crun []
  · rw [if_neg hi]
    by_cases hf : s.chan.freqAt i = 0
    · have : (s.chan.freqAt i).toNat = 0 := by rw [hf]; rfl
      crun [hf]
      rfl
    · have : (s.chan.freqAt i).toNat ≠ 0 := by
        intro h
        exact hf (BitVec.eq_of_toNat_eq h)
      have h2 : (s.chan.freqAt i != 0) = true := bne_iff_ne.mpr hf
      crun [h2]

theorem loop_lower (C : Ctx ω) (hL : 16 < C.loops) (j : Nat) (hj : j < 16) (e : Val) :
    exec C (.loop (.bin .lt (.load (.loc "i")) (.load (.loc "index"))) (.expr (.post .add (.loc "i")))
                  (.ite (.bin .and (.load (.elem (.addr (.glob "uw_channels_mask")) (.bin .div (.load (.loc "i")) (.lit .i32 8)))) (.bin .shl (.lit .i32 1) (.bin .mod (.load (.loc "i")) (.lit .i32 8))))
                    (.expr (.asg (.glob "uw_channels_max_count") (.bin .add (.load (.loc "i")) (.lit .i32 1))))
                    (.skip))) ⟨enc s x, [("i", [.int .u8 0]), ("index", [.int .u8 j]), ("enable", [e])] :: fs, w⟩ =
    .ok (.next, ⟨enc { s with chan := { s.chan with maxCount := lowerMax s.chan.mask j s.chan.maxCount } } x,
      [("i", [.int .u8 j]), ("index", [.int .u8 j]), ("enable", [e])] :: fs, w⟩) := by
  rw [exec_loop]
  refine Eq.trans (congrArg _ ?_) (iter_count _ _ _ j
    (fun i => ⟨enc { s with chan := { s.chan with maxCount := lowerMax s.chan.mask i s.chan.maxCount } } x,
      [("i", [.int .u8 i]), ("index", [.int .u8 j]), ("enable", [e])] :: fs, w⟩)
    (fun i => ⟨enc { s with chan := { s.chan with maxCount := lowerMax s.chan.mask (i + 1) s.chan.maxCount } } x,
      [("i", [.int .u8 i]), ("index", [.int .u8 j]), ("enable", [e])] :: fs, w⟩) ?_ ?_ ?_ ?_ C.loops (by omega))
  · rfl
  · intro i hi
    crun []
  · intro i hi
    have hl : lowerMax s.chan.mask (i + 1) s.chan.maxCount = if s.chan.mask.isSet i then i + 1 else lowerMax s.chan.mask i s.chan.maxCount := by
      unfold lowerMax
      rw [List.range_succ, List.foldl_append]
      rfl
    rw [hl]
    cases hb : s.chan.mask.isSet i
    · unfold Mask.isSet at hb
      crun [hb]
    · unfold Mask.isSet at hb
      crun [hb]
  · intro i hi
    refine ⟨.next, ?_⟩
    crun [Int.natCast_add, Int.natCast_one]
  · crun []

theorem run_uwan_enable_channel (hL : 16 < L) (i : Nat) (h : i < 256) (v : Val) (b : Bool) (hv : assign (.uninit (some .bool)) v = .ok (boolVal b)) (hm : s.chan.maxCount < 256) :
    call H Src.prog L (k + 1) "uwan_enable_channel" [.int t i, v] ⟨enc s x, fs, w⟩ =
    .ok (enumVal (Err.num (enableChannel s.chan i b).1), ⟨enc { s with chan := (enableChannel s.chan i b).2 } x, fs, w⟩) := by
  rw [call_fun H find_uwan_enable_channel]
  unfold Src.uwan_enable_channel enableChannel
  by_cases hi : 16 ≤ i
  · rw [if_pos hi]
    crun [hv]
    rfl
  · rw [if_neg hi]
    cases b
    · by_cases hc : s.chan.maxCount = i + 1
      · crun [hv, loop_lower]
        rw [if_pos hc]
        rfl
      · crun [hv]
        rw [if_neg hc]
        rfl
    · by_cases hf : s.chan.freqAt i = 0
      · have : (s.chan.freqAt i).toNat = 0 := by rw [hf]; rfl
        crun [hv, hf]
        rfl
      · have : (s.chan.freqAt i).toNat ≠ 0 := by
          intro h
          exact hf (BitVec.eq_of_toNat_eq h)
        unfold Chan.turnOn
        by_cases hc : s.chan.maxCount < i + 1
        · crun [hv, hf]
          rw [if_pos hc]
          rfl
        · crun [hv, hf]
          rw [if_neg hc]
          rfl

@[csem] theorem assign_true : assign (.uninit (some .bool)) (.int .i32 1) = .ok (boolVal true) := (rfl)
@[csem] theorem assign_false : assign (.uninit (some .bool)) (.int .i32 0) = .ok (boolVal false) := (rfl)

theorem run_uwan_set_channel (hL : 16 < L) (i : Nat) (h : i < 256) (f : Int) (t' : Ty) (h0 : 0 ≤ f) (h1 : f < 4294967296) (hm : s.chan.maxCount < 256) :
    call H Src.prog L (k + 2) "uwan_set_channel" [.int t i, .int t' f] ⟨enc s x, fs, w⟩ =
    .ok (enumVal (Err.num (setChannel s.chan i (BitVec.ofInt 32 f)).1), ⟨enc { s with chan := (setChannel s.chan i (BitVec.ofInt 32 f)).2 } x, fs, w⟩) := by
  rw [call_fun H find_uwan_set_channel]
  unfold Src.uwan_set_channel setChannel
  by_cases hi : 16 ≤ i
  · rw [if_pos hi]
    crun []
    rfl
  · rw [if_neg hi]
    cases hf : isValidFrequency (BitVec.ofInt 32 f)
    · crun [run_is_valid_frequency, hf]
      rfl
    · have he := fun s' (hm : s'.chan.maxCount < 256) fs => run_uwan_enable_channel H L k s' x fs w .u8 hL i h (.int .i32 1) true rfl hm
      crun [run_is_valid_frequency, hf, he]
      rfl

theorem turnOn_bound (c : Chan) (i : Nat) (hi : i < 16) (h : c.maxCount < 256) : (c.turnOn i).maxCount < 256 := by
  unfold Chan.turnOn
  dsimp only
  split <;> omega

theorem run_channels_enable_all (hL : 16 < L) (hm : s.chan.maxCount < 256) : call H Src.prog L (k + 1) "channels_enable_all" [] ⟨enc s x, fs, w⟩ =
    .ok (.null, ⟨enc { s with chan := channelsEnableAll s.chan } x, fs, w⟩) := by
  rw [call_fun H find_channels_enable_all]
  have key : ∀ C : Ctx ω, 16 < C.loops → exec C (.loop (.bin .lt (.load (.loc "i")) (.lit .i32 16)) (.expr (.post .add (.loc "i")))
        (.ite (.bin .ne (.load (.elem (.addr (.glob "uw_channels")) (.load (.loc "i")))) (.lit .i32 0))
          (.seq (.expr (.asg (.glob "uw_channels_max_count") (.cond (.bin .lt (.load (.glob "uw_channels_max_count")) (.bin .add (.load (.loc "i")) (.lit .i32 1))) (.bin .add (.load (.loc "i")) (.lit .i32 1)) (.load (.glob "uw_channels_max_count")))))
            (.expr (.asgOp .or (.elem (.addr (.glob "uw_channels_mask")) (.bin .div (.load (.loc "i")) (.lit .i32 8))) (.bin .shl (.lit .i32 1) (.bin .mod (.load (.loc "i")) (.lit .i32 8))))))
          (.skip))) ⟨enc s x, [("i", [.int .u8 0])] :: fs, w⟩ =
      .ok (.next, ⟨enc { s with chan := channelsEnableAll s.chan } x, [("i", [.int .u8 16])] :: fs, w⟩) := by
    intro C hL
    rw [exec_loop]
    have hs : ∀ i, (List.range (i + 1)).foldl (fun c i => if c.freqAt i ≠ 0 then c.turnOn i else c) s.chan =
        if ((List.range i).foldl (fun c i => if c.freqAt i ≠ 0 then c.turnOn i else c) s.chan).freqAt i ≠ 0 then
          ((List.range i).foldl (fun c i => if c.freqAt i ≠ 0 then c.turnOn i else c) s.chan).turnOn i
        else (List.range i).foldl (fun c i => if c.freqAt i ≠ 0 then c.turnOn i else c) s.chan := by
      intro i
      rw [List.range_succ, List.foldl_append]
      rfl
    have hb : ∀ i ≤ 16, ((List.range i).foldl (fun c i => if c.freqAt i ≠ 0 then c.turnOn i else c) s.chan).maxCount < 256 := by
      intro i
      induction i with
      | zero => intro _; exact hm
      | succ i ih =>
        intro hi
        rw [hs]
        split
        · exact turnOn_bound _ _ (by omega) (ih (by omega))
        · exact ih (by omega)
    refine Eq.trans (congrArg _ ?_) (iter_count _ _ _ 16
      (fun i => ⟨enc { s with chan := (List.range i).foldl (fun c i => if c.freqAt i ≠ 0 then c.turnOn i else c) s.chan } x, [("i", [.int .u8 i])] :: fs, w⟩)
      (fun i => ⟨enc { s with chan := (List.range (i + 1)).foldl (fun c i => if c.freqAt i ≠ 0 then c.turnOn i else c) s.chan } x, [("i", [.int .u8 i])] :: fs, w⟩)
      ?_ ?_ ?_ ?_ C.loops (by omega))
    · rfl
    · intro i hi
      crun []
    · intro i hi
      have := hb i (by omega)
      rw [hs]
      generalize (List.range i).foldl (fun c i => if c.freqAt i ≠ 0 then c.turnOn i else c) s.chan = c at *
      by_cases hf : c.freqAt i = 0
      · have h1 : (c.freqAt i).toNat = 0 := by rw [hf]; rfl
        rw [if_neg (by simp [hf])]
        crun []
      · have h1 : (c.freqAt i).toNat ≠ 0 := by
          intro h
          exact hf (BitVec.eq_of_toNat_eq h)
        rw [if_pos hf]
        unfold Chan.turnOn
        by_cases hc : c.maxCount < i + 1
        · crun []
          rw [if_pos hc]
          rfl
        · crun []
          rw [if_neg hc]
          rfl
    · intro i hi
      refine ⟨.next, ?_⟩
      crun [Int.natCast_add, Int.natCast_one]
    · crun []
  unfold Src.channels_enable_all
  crun [key]

end Uwan.C
