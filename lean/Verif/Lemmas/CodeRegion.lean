import Verif.Lemmas.CodeWords

/-! # `channels_get_next` and the functions of `src/region` do what the model says -/

namespace Uwan.C

section
variable (I : Input) (L k : Nat) (s : St) (x : Extra) (fs : List Objs) (w : World)

@[csem] theorem host_rand (g : Objs) (r : Nat) (rs : List Nat) (h : w.rands = r :: rs) : call (host I) Src.prog L (k + 1) "rand" [] ⟨g, fs, w⟩ =
    .ok (.int .i32 r, ⟨g, fs, { w with rands := rs }⟩) := by
  rw [call_lib (host I) find_rand]
  show popRand _ = _
  unfold popRand
  rw [h]

/-- The statement of `channels_get_next` after the first random number. -/
def nextLoop : Stmt := .seq (.doWhile
              (.seq (.ite (.bin .and (.load (.elem (.addr (.glob "uw_channels_mask")) (.bin .div (.load (.loc "ch")) (.lit .i32 8)))) (.bin .shl (.lit .i32 1) (.bin .mod (.load (.loc "ch")) (.lit .i32 8))))
                  (.retVal (.load (.elem (.addr (.glob "uw_channels")) (.load (.loc "ch")))))
                  (.skip))
                (.expr (.asg (.loc "ch") (.bin .mod (.bin .add (.load (.loc "ch")) (.lit .i32 1)) (.load (.glob "uw_channels_max_count"))))))
              (.bin .ne (.load (.loc "start_ch")) (.load (.loc "ch"))))
            (.retVal (.lit .i32 0))

/-- The body of the loop. -/
def nextBody : Stmt := .seq (.ite (.bin .and (.load (.elem (.addr (.glob "uw_channels_mask")) (.bin .div (.load (.loc "ch")) (.lit .i32 8)))) (.bin .shl (.lit .i32 1) (.bin .mod (.load (.loc "ch")) (.lit .i32 8))))
                  (.retVal (.load (.elem (.addr (.glob "uw_channels")) (.load (.loc "ch")))))
                  (.skip))
                (.expr (.asg (.loc "ch") (.bin .mod (.bin .add (.load (.loc "ch")) (.lit .i32 1)) (.load (.glob "uw_channels_max_count")))))

def nextCond : Expr := .bin .ne (.load (.loc "start_ch")) (.load (.loc "ch"))

theorem next_body_found {ω : Type} (C : Ctx ω) (w : ω) (a b : Nat) (hb : b < 16) (h : s.chan.mask.isSet b = true) :
    exec C nextBody ⟨enc s x, [("start_ch", [.int .u8 a]), ("ch", [.int .u8 b])] :: fs, w⟩ =
    .ok (.ret (some (u32Val (s.chan.freqAt b))), ⟨enc s x, [("start_ch", [.int .u8 a]), ("ch", [.int .u8 b])] :: fs, w⟩) := by
  unfold nextBody
  unfold Mask.isSet at h
  crun [h]

theorem next_body_next {ω : Type} (C : Ctx ω) (w : ω) (a b : Nat) (hb : b < 16) (h : s.chan.mask.isSet b = false) (h0 : 0 < s.chan.maxCount) (h1 : s.chan.maxCount ≤ 16) :
    exec C nextBody ⟨enc s x, [("start_ch", [.int .u8 a]), ("ch", [.int .u8 b])] :: fs, w⟩ =
    .ok (.next, ⟨enc s x, [("start_ch", [.int .u8 a]), ("ch", [.int .u8 ((b + 1) % s.chan.maxCount : Nat)])] :: fs, w⟩) := by
  unfold nextBody
  unfold Mask.isSet at h
  have hm : ((b : Int) + 1) % (s.chan.maxCount : Int) = (((b + 1) % s.chan.maxCount : Nat) : Int) := by
    rw [Int.natCast_emod]; rfl
  have hl : (b + 1) % s.chan.maxCount < s.chan.maxCount := Nat.mod_lt _ h0
  crun [h, hm]

theorem next_cond {ω : Type} (C : Ctx ω) (w : ω) (a b : Nat) : M.bind (eval C nextCond) isTrue
      ⟨enc s x, [("start_ch", [.int .u8 a]), ("ch", [.int .u8 b])] :: fs, w⟩ =
    .ok (decide (a ≠ b), ⟨enc s x, [("start_ch", [.int .u8 a]), ("ch", [.int .u8 b])] :: fs, w⟩) := by
  unfold nextCond
  by_cases h : a = b
  · subst h
    crun []
    simp
  · crun []
    simp [h]

theorem next_run {ω : Type} (C : Ctx ω) (w : ω) (a : Nat) (h0 : 0 < s.chan.maxCount) (h1 : s.chan.maxCount ≤ 16) (f : U32) :
    ∀ (n : Nat) (b : Nat), b < 16 → ∀ l, n ≤ l → getNextLoop s.chan a n b = .ok f →
    ∃ o fr, (M.bind (exec C nextBody) fun
      | .next => iter (M.bind (eval C nextCond) isTrue) (M.pure .next) (exec C nextBody) l
      | .brk => M.pure .next
      | .ret v => M.pure (.ret v)) ⟨enc s x, [("start_ch", [.int .u8 a]), ("ch", [.int .u8 b])] :: fs, w⟩ = .ok (o, ⟨enc s x, fr :: fs, w⟩) ∧
      ((o = .next ∧ f = 0) ∨ o = .ret (some (u32Val f))) := by
  intro n
  induction n with
  | zero => intro b _ l _ h; cases h
  | succ n ih =>
    intro b hb l hl h
    unfold getNextLoop at h
    rw [if_neg (by omega)] at h
    by_cases hm : s.chan.mask.isSet b = true
    · rw [if_pos hm] at h
      injection h with h
      refine ⟨.ret (some (u32Val f)), [("start_ch", [.int .u8 a]), ("ch", [.int .u8 b])], ?_, Or.inr rfl⟩
      simp only [M.bind, next_body_found s x fs C w a b hb hm, M.pure, h]
    · rw [if_neg hm] at h
      simp only [M.bind, next_body_next s x fs C w a b hb (by simpa using hm) h0 h1]
      obtain ⟨l, rfl⟩ : ∃ l', l = l' + 1 := ⟨l - 1, by omega⟩
      have hlt : (b + 1) % s.chan.maxCount < s.chan.maxCount := Nat.mod_lt _ h0
      have h256 : (b + 1) % s.chan.maxCount % 256 = (b + 1) % s.chan.maxCount := Nat.mod_eq_of_lt (by omega)
      simp only [h256] at h
      have hc := next_cond s x fs C w a ((b + 1) % s.chan.maxCount)
      simp only [iter, M.bind] at hc ⊢
      by_cases hs : a = (b + 1) % s.chan.maxCount
      · rw [if_neg (by simp [hs])] at h
        injection h with h
        rw [hc]
        simp only [hs, ne_eq, not_true_eq_false, decide_false, Bool.false_eq_true, if_false, M.pure]
        exact ⟨.next, _, rfl, Or.inl ⟨rfl, h.symm⟩⟩
      · rw [if_pos hs] at h
        rw [hc]
        simp only [hs, ne_eq, not_false_eq_true, decide_true, if_true]
        exact ih _ (by omega) l (by omega) h

theorem next_stmt {ω : Type} (C : Ctx ω) (w : ω) (a b : Nat) (hb : b < 16) (h0 : 0 < s.chan.maxCount) (h1 : s.chan.maxCount ≤ 16) (f : U32) (hl : 256 ≤ C.loops)
    (h : getNextLoop s.chan a 256 b = .ok f) :
    ∃ v fr, exec C nextLoop ⟨enc s x, [("start_ch", [.int .u8 a]), ("ch", [.int .u8 b])] :: fs, w⟩ = .ok (.ret (some v), ⟨enc s x, fr :: fs, w⟩) ∧
      assign (.uninit (some .u32)) v = .ok (u32Val f) := by
  obtain ⟨o, fr, hr, ho⟩ := next_run s x fs C w a h0 h1 f 256 b hb C.loops hl h
  have hd : exec C (.doWhile nextBody nextCond) ⟨enc s x, [("start_ch", [.int .u8 a]), ("ch", [.int .u8 b])] :: fs, w⟩ = .ok (o, ⟨enc s x, fr :: fs, w⟩) := by
    rw [← hr, exec]
    refine congrFun (congrArg _ (funext fun o => ?_)) _
    cases o <;> rfl
  show ∃ v fr, exec C (.seq (.doWhile nextBody nextCond) (.retVal (.lit .i32 0))) _ = _ ∧ _
  rcases ho with ⟨rfl, rfl⟩ | rfl
  · refine ⟨.int .i32 0, fr, ?_, rfl⟩
    rw [exec_seq, hd]
    crun []
  · refine ⟨u32Val f, fr, ?_, ?_⟩
    · rw [exec_seq, hd]
      crun []
    · have := f.isLt
      crun []

theorem run_utils_get_random (r : Nat) (rs : List Nat) (h : w.rands = r :: rs) (hr : r < 2147483648) (t : Ty) (n : Nat) (h0 : 0 < n) (h1 : n < 4294967296) :
    call (host I) Src.prog L (k + 2) "utils_get_random" [.int t n] ⟨enc s x, fs, w⟩ = .ok (.int .u32 (r % n : Nat), ⟨enc s x, fs, { w with rands := rs }⟩) := by
  rw [call_fun (host I) find_utils_get_random]
  unfold Src.utils_get_random
  have hm : (r : Int) % (n : Int) = ((r % n : Nat) : Int) := by rw [Int.natCast_emod]
  have hl : r % n < n := Nat.mod_lt _ h0
  crun [host_rand, h, hm]

/-- What is left of the environment after `channels_get_next`. -/
def afterNext (c : Chan) (w : World) : World := if c.maxCount = 0 then w else { w with rands := w.rands.drop 1 }

theorem run_channels_get_next (hL : 256 ≤ L) (r : Nat) (rs : List Nat) (h : w.rands = r :: rs) (hr : r < 2147483648) (hm : s.chan.maxCount ≤ 16) (f : U32)
    (hf : channelsGetNext s.chan r = .ok f) :
    call (host I) Src.prog L (k + 3) "channels_get_next" [] ⟨enc s x, fs, w⟩ = .ok (u32Val f, ⟨enc s x, fs, afterNext s.chan w⟩) := by
  rw [call_fun (host I) find_channels_get_next]
  unfold Src.channels_get_next
  unfold channelsGetNext at hf
  by_cases h0 : s.chan.maxCount = 0
  · rw [if_pos h0] at hf
    injection hf with hf
    subst hf
    unfold afterNext
    rw [if_pos h0]
    crun [h0]
    rfl
  · rw [if_neg h0] at hf
    have hlt : r % s.chan.maxCount < s.chan.maxCount := Nat.mod_lt _ (by omega)
    have h256 : r % s.chan.maxCount % 256 = r % s.chan.maxCount := Nat.mod_eq_of_lt (by omega)
    simp only [h256] at hf
    obtain ⟨v, fr, hs, hv⟩ := next_stmt s x fs ⟨host I, call (host I) Src.prog L (k + 2), L⟩ { w with rands := rs } _ _ (by omega) (by omega) hm f hL hf
    unfold nextLoop at hs
    have ha : afterNext s.chan w = { w with rands := rs } := by
      unfold afterNext
      rw [if_neg h0, h]
      rfl
    rw [ha]
    crun [run_utils_get_random, h, hs, hv]

end

variable {ω : Type} (H : Host ω) (L k : Nat) (s : St) (x : Extra) (fs : List Objs) (w : ω) (t : Ty)

theorem stores_mask_zero : stores ⟨none, "uw_channels_mask", 0⟩ (List.replicate 2 (.int .u8 0)) ⟨enc s x, fs, w⟩ =
    .ok ((), ⟨enc { s with chan := { s.chan with mask := ⟨0, 0⟩ } } x, fs, w⟩) :=
  stores_bytes (m := ⟨enc s x, fs, w⟩) (l := [s.chan.mask.b0, s.chan.mask.b1]) (off := 0) (v := [0, 0]) (r := [0, 0]) rfl rfl

theorem run_channels_init : call H Src.prog L (k + 2) "channels_init" [] ⟨enc s x, fs, w⟩ = .ok (.null, ⟨enc { s with chan := channelsInit s.chan } x, fs, w⟩) := by
  rw [call_fun H find_channels_init]
  unfold Src.channels_init channelsInit
  crun [stores_mask_zero]

/-- The same as `run_uwan_set_channel`, the index given as an integer. -/
theorem run_set_channel_int (hL : 16 < L) (i : Int) (hi0 : 0 ≤ i) (hi : i < 256) (f : Int) (t' : Ty) (h0 : 0 ≤ f) (h1 : f < 4294967296) (hm : s.chan.maxCount < 256) :
    call H Src.prog L (k + 2) "uwan_set_channel" [.int t i, .int t' f] ⟨enc s x, fs, w⟩ =
    .ok (enumVal (Err.num (setChannel s.chan i.toNat (BitVec.ofInt 32 f)).1), ⟨enc { s with chan := (setChannel s.chan i.toNat (BitVec.ofInt 32 f)).2 } x, fs, w⟩) := by
  obtain ⟨n, rfl⟩ := Int.eq_ofNat_of_zero_le hi0
  rw [Int.toNat_natCast]
  exact run_uwan_set_channel H L k s x fs w t hL n (by omega) f t' h0 h1 hm

theorem lowerMax_bound (m : Mask) (j c : Nat) (hj : j ≤ 16) (h : c < 256) : lowerMax m j c < 256 := by
  induction j with
  | zero => exact h
  | succ j ih =>
    have hl : lowerMax m (j + 1) c = if m.isSet j then j + 1 else lowerMax m j c := by
      unfold lowerMax
      rw [List.range_succ, List.foldl_append]
      rfl
    rw [hl]
    split
    · omega
    · exact ih (by omega)

theorem enable_bound (c : Chan) (i : Nat) (b : Bool) (h : c.maxCount < 256) : (enableChannel c i b).2.maxCount < 256 := by
  unfold enableChannel
  split
  · exact h
  · next hi =>
    cases b
    · simp only [Bool.false_eq_true, if_false]
      split
      · exact lowerMax_bound _ _ _ (by omega) h
      · exact h
    · simp only [if_true]
      split
      · exact h
      · exact turnOn_bound _ _ (by omega) h

theorem set_bound (c : Chan) (i : Nat) (f : U32) (h : c.maxCount < 256) : (setChannel c i f).2.maxCount < 256 := by
  unfold setChannel
  split
  · exact h
  · split
    · exact h
    · exact enable_bound _ _ _ h

theorem enable_all_bound (c : Chan) (h : c.maxCount < 256) : (channelsEnableAll c).maxCount < 256 := by
  unfold channelsEnableAll
  have key : ∀ i ≤ 16, ((List.range i).foldl (fun c i => if c.freqAt i ≠ 0 then c.turnOn i else c) c).maxCount < 256 := by
    intro i
    induction i with
    | zero => intro _; exact h
    | succ i ih =>
      intro hi
      rw [List.range_succ, List.foldl_append]
      simp only [List.foldl_cons, List.foldl_nil]
      split
      · exact turnOn_bound _ _ (by omega) (ih (by omega))
      · exact ih (by omega)
  exact key 16 (by omega)

theorem run_eu868_init (hL : 16 < L) (hm : s.chan.maxCount < 256) : call H Src.prog L (k + 3) "eu868_init" [] ⟨enc s x, fs, w⟩ =
    .ok (.null, ⟨enc (eu868Init s) x, fs, w⟩) := by
  rw [call_fun H find_eu868_init]
  have b1 := set_bound s.chan 0 (868100000) hm
  have b2 := set_bound _ 1 868300000 b1
  have e0 : BitVec.ofInt 32 868100000 = (868100000 : U32) := by decide
  have e1 : BitVec.ofInt 32 868300000 = (868300000 : U32) := by decide
  have e2 : BitVec.ofInt 32 868500000 = (868500000 : U32) := by decide
  have d0 : BitVec.ofInt 8 0 = (0 : Byte) := by decide
  have d1 : BitVec.ofInt 8 1 = (1 : Byte) := by decide
  unfold Src.eu868_init eu868Init St.setChan
  crun [run_set_channel_int, run_uwan_set_rx1_delay, run_uwan_set_rx1_dr_offset, run_uwan_set_rx2, e0, e1, e2, d0, d1]

theorem run_ru864_init (hL : 16 < L) (hm : s.chan.maxCount < 256) : call H Src.prog L (k + 3) "ru864_init" [] ⟨enc s x, fs, w⟩ =
    .ok (.null, ⟨enc (ru864Init s) x, fs, w⟩) := by
  rw [call_fun H find_ru864_init]
  have b1 := set_bound s.chan 0 (868900000) hm
  have e0 : BitVec.ofInt 32 868900000 = (868900000 : U32) := by decide
  have e1 : BitVec.ofInt 32 869100000 = (869100000 : U32) := by decide
  have d0 : BitVec.ofInt 8 0 = (0 : Byte) := by decide
  have d1 : BitVec.ofInt 8 1 = (1 : Byte) := by decide
  unfold Src.ru864_init ru864Init St.setChan
  crun [run_set_channel_int, run_uwan_set_rx1_delay, run_uwan_set_rx1_dr_offset, run_uwan_set_rx2, e0, e1, d0, d1]

end Uwan.C
