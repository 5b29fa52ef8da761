import Verif.Lemmas.CodeRegion

/-! # `region_86x_handle_adr_ch_mask` and `region_86x_handle_cflist` -/

namespace Uwan.C

section
variable {ω : Type}

/-- A counting loop left by `return` in the first round `i` with `p i`. -/
theorem iter_search (cond : M ω Bool) (step body : M ω Out) (n : Nat) (J K : Nat → Mem ω) (p : Nat → Bool) (v : Option Val) (hc : ∀ i < n, cond (J i) = .ok (true, J i))
    (hb : ∀ i < n, body (J i) = .ok (if p i then .ret v else .next, K i)) (hs : ∀ i < n, ∃ o, step (K i) = .ok (o, J (i + 1))) (he : cond (J n) = .ok (false, J n))
    (L : Nat) (hL : n < L) :
    if (List.range n).any p then ∃ i, i < n ∧ iter cond step body L (J 0) = .ok (.ret v, K i) else iter cond step body L (J 0) = .ok (.next, J n) := by
  suffices h : ∀ d i, i + d = n → ∀ L, d < L →
      (if (List.range' i d).any p then ∃ j, j < n ∧ iter cond step body L (J i) = .ok (.ret v, K j) else iter cond step body L (J i) = .ok (.next, J n)) by
    have := h n 0 (by omega) L hL
    rwa [List.range_eq_range']
  intro d
  induction d with
  | zero =>
    intro i hi L hL
    obtain ⟨L, rfl⟩ : ∃ l, L = l + 1 := ⟨L - 1, by omega⟩
    have : i = n := by omega
    subst this
    simp [iter, M.bind, he, M.pure]
  | succ d ih =>
    intro i hi L hL
    obtain ⟨L, rfl⟩ : ∃ l, L = l + 1 := ⟨L - 1, by omega⟩
    obtain ⟨o, ho⟩ := hs i (by omega)
    have ih := ih (i + 1) (by omega) L (by omega)
    rw [List.range'_succ, List.any_cons]
    cases hp : p i
    · simp only [iter, M.bind, hc i (by omega), hb i (by omega), ho, if_true, hp, Bool.false_eq_true, if_false, Bool.false_or]
      exact ih
    · simp only [Bool.true_or, if_true]
      refine ⟨i, by omega, ?_⟩
      simp only [iter, M.bind, hc i (by omega), hb i (by omega), if_true, hp, M.pure]

variable (H : Host ω) (L k : Nat) (s : St) (x : Extra) (fs : List Objs) (w : ω) (t t' : Ty)

/-- The loop of `region_86x_handle_adr_ch_mask`. -/
def maskLoop : Stmt := .loop (.bin .lt (.load (.loc "i")) (.lit .i32 16)) (.expr (.post .add (.loc "i")))
              (.seq (.decl "enable" ([.uninit (some .bool)]))
                (.seq (.expr (.asg (.loc "enable") (.bin .ne (.bin .and (.load (.loc "ch_mask")) (.bin .shl (.lit .i32 1) (.load (.loc "i")))) (.lit .i32 0))))
                  (.ite (.load (.loc "dry_run"))
                    (.ite (.and (.load (.loc "enable")) (.bin .eq (.call (.fn "channel_is_exist") (.cons (.load (.loc "i")) (.nil))) (.lit .i32 0)))
                      (.retVal (.lit .i32 0))
                      (.skip))
                    (.expr (.call (.fn "uwan_enable_channel") (.cons (.load (.loc "i")) (.cons (.load (.loc "enable")) (.nil))))))))

/-- Its local variables. -/
def maskFrame (c : U16) (n : Nat) (b : Bool) (j : Nat) : Nat → Objs
  | 0 => [("i", [.int .i32 j]), ("ch_mask", [.int .u16 c.toNat]), ("ch_mask_cntl", [.int .u8 n]), ("dry_run", [boolVal b])]
  | i + 1 => [("enable", [boolVal (c.getLsbD i)]), ("i", [.int .i32 j]), ("ch_mask", [.int .u16 c.toNat]), ("ch_mask_cntl", [.int .u8 n]), ("dry_run", [boolVal b])]

theorem mask_loop_dry (hL : 16 < L) (c : U16) (n : Nat) :
    (chMaskOk s.chan c = true → exec ⟨H, call H Src.prog L (k + 1), L⟩ maskLoop ⟨enc s x, maskFrame c n true 0 0 :: fs, w⟩ =
      .ok (.next, ⟨enc s x, maskFrame c n true 16 16 :: fs, w⟩)) ∧
    (chMaskOk s.chan c = false → ∃ i, exec ⟨H, call H Src.prog L (k + 1), L⟩ maskLoop ⟨enc s x, maskFrame c n true 0 0 :: fs, w⟩ =
      .ok (.ret (some (.int .i32 0)), ⟨enc s x, maskFrame c n true i (i + 1) :: fs, w⟩)) := by
  have h := iter_search (M.bind (eval ⟨H, call H Src.prog L (k + 1), L⟩ (.bin .lt (.load (.loc "i")) (.lit .i32 16))) isTrue) (exec ⟨H, call H Src.prog L (k + 1), L⟩ (.expr (.post .add (.loc "i"))))
    (exec ⟨H, call H Src.prog L (k + 1), L⟩ (.seq (.decl "enable" ([.uninit (some .bool)]))
                (.seq (.expr (.asg (.loc "enable") (.bin .ne (.bin .and (.load (.loc "ch_mask")) (.bin .shl (.lit .i32 1) (.load (.loc "i")))) (.lit .i32 0))))
                  (.ite (.load (.loc "dry_run"))
                    (.ite (.and (.load (.loc "enable")) (.bin .eq (.call (.fn "channel_is_exist") (.cons (.load (.loc "i")) (.nil))) (.lit .i32 0)))
                      (.retVal (.lit .i32 0))
                      (.skip))
                    (.expr (.call (.fn "uwan_enable_channel") (.cons (.load (.loc "i")) (.cons (.load (.loc "enable")) (.nil))))))))) 16
    (fun i => ⟨enc s x, maskFrame c n true i i :: fs, w⟩) (fun i => ⟨enc s x, maskFrame c n true i (i + 1) :: fs, w⟩)
    (fun i => c.getLsbD i && !channelIsExist s.chan i) (some (.int .i32 0)) ?_ ?_ ?_ ?_ L hL
  · have ha : (List.range 16).any (fun i => c.getLsbD i && !channelIsExist s.chan i) = !chMaskOk s.chan c := by
      unfold chMaskOk
      rw [List.all_eq_not_any_not, Bool.not_not]
      simp only [Bool.not_not]
    rw [ha] at h
    constructor
    · intro ho
      rw [ho] at h
      simp only [Bool.not_true, Bool.false_eq_true, if_false] at h
      unfold maskLoop
      rw [exec_loop]
      exact h
    · intro ho
      rw [ho] at h
      simp only [Bool.not_false, if_true] at h
      obtain ⟨i, _, h⟩ := h
      refine ⟨i, ?_⟩
      unfold maskLoop
      rw [exec_loop]
      exact h
  · intro i hi
    cases i <;> unfold maskFrame
    · crun []
    · crun [Int.natCast_add, Int.natCast_one]
  · intro i hi
    have hm := mask_bit c i hi
    cases hb : c.getLsbD i <;> cases he : channelIsExist s.chan i <;> rw [hb] at hm <;> cases i <;> unfold maskFrame <;>
      crun [hm, run_channel_is_exist, he, hb] <;> rfl
  · intro i hi
    refine ⟨.next, ?_⟩
    unfold maskFrame
    crun [Int.natCast_add, Int.natCast_one]
  · unfold maskFrame
    crun []

theorem apply_bound (c : Chan) (m : U16) (h : c.maxCount < 256) (i : Nat) : ((List.range i).foldl (fun c i => (enableChannel c i (m.getLsbD i)).2) c).maxCount < 256 := by
  induction i with
  | zero => exact h
  | succ i ih =>
    rw [List.range_succ, List.foldl_append]
    exact enable_bound _ _ _ ih

theorem mask_loop_apply (hL : 16 < L) (c : U16) (n : Nat) (hm : s.chan.maxCount < 256) :
    exec ⟨H, call H Src.prog L (k + 1), L⟩ maskLoop ⟨enc s x, maskFrame c n false 0 0 :: fs, w⟩ =
      .ok (.next, ⟨enc { s with chan := applyChMask s.chan c } x, maskFrame c n false 16 16 :: fs, w⟩) := by
  unfold maskLoop
  rw [exec_loop]
  have hs : ∀ i, (List.range (i + 1)).foldl (fun c' i => (enableChannel c' i (c.getLsbD i)).2) s.chan =
      (enableChannel ((List.range i).foldl (fun c' i => (enableChannel c' i (c.getLsbD i)).2) s.chan) i (c.getLsbD i)).2 := by
    intro i
    rw [List.range_succ, List.foldl_append]
    rfl
  refine Eq.trans (congrArg _ ?_) (iter_count _ _ _ 16
    (fun i => ⟨enc { s with chan := (List.range i).foldl (fun c' i => (enableChannel c' i (c.getLsbD i)).2) s.chan } x, maskFrame c n false i i :: fs, w⟩)
    (fun i => ⟨enc { s with chan := (List.range (i + 1)).foldl (fun c' i => (enableChannel c' i (c.getLsbD i)).2) s.chan } x, maskFrame c n false i (i + 1) :: fs, w⟩)
    ?_ ?_ ?_ ?_ L hL)
  · rfl
  · intro i hi
    cases i <;> unfold maskFrame
    · crun []
    · crun [Int.natCast_add, Int.natCast_one]
  · intro i hi
    have hb := apply_bound s.chan c hm i
    rw [hs]
    generalize (List.range i).foldl (fun c' i => (enableChannel c' i (c.getLsbD i)).2) s.chan = ch at *
    have hbit := mask_bit c i hi
    have he := fun fs => run_uwan_enable_channel H L k { s with chan := ch } x fs w .i32 hL i (by omega) (boolVal (c.getLsbD i)) (c.getLsbD i) (assign_uninit_bool _) hb
    cases i <;> unfold maskFrame <;> crun [hbit, he]
  · intro i hi
    refine ⟨.next, ?_⟩
    unfold maskFrame
    crun [Int.natCast_add, Int.natCast_one]
  · unfold maskFrame
    crun []

theorem run_handle_adr_ch_mask (hL : 16 < L) (c : U16) (n : Nat) (hn : n < 256) (v : Val) (b : Bool) (hv : assign (.uninit (some .bool)) v = .ok (boolVal b)) (hm : s.chan.maxCount < 256) :
    call H Src.prog L (k + 2) "region_86x_handle_adr_ch_mask" [.int t c.toNat, .int t' n, v] ⟨enc s x, fs, w⟩ =
    .ok (boolVal (handleAdrChMask s.chan c n b).1, ⟨enc { s with chan := (handleAdrChMask s.chan c n b).2 } x, fs, w⟩) := by
  rw [call_fun H find_region_86x_handle_adr_ch_mask]
  unfold Src.region_86x_handle_adr_ch_mask handleAdrChMask
  have hc := c.isLt
  by_cases h0 : n = 0
  · cases b
    · have hl := mask_loop_apply H L k s x fs w hL c n hm
      unfold maskLoop maskFrame at hl
      crun [hv, h0, Int.natCast_zero] at hl ⊢
      crun [hl]
    · obtain ⟨h1, h2⟩ := mask_loop_dry H L k s x fs w hL c n
      unfold maskLoop maskFrame at h1 h2
      cases ho : chMaskOk s.chan c
      · obtain ⟨i, h2⟩ := h2 ho
        crun [hv, h0, Int.natCast_zero, ho] at h2 ⊢
        crun [h2]
      · have h1 := h1 ho
        crun [hv, h0, Int.natCast_zero, ho] at h1 ⊢
        crun [h1]
  · by_cases h6 : n = 6
    · rw [if_neg h0, if_pos h6]
      cases b
      · crun [hv, run_channels_enable_all]
      · crun [hv]
    · rw [if_neg h0, if_neg h6]
      crun [hv]

end
end Uwan.C
