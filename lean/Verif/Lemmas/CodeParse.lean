import Verif.Lemmas.CodeRounds

/-! # `handle_answ` and `uwan_clock_sync_handle_time_answ` of `ext/clock_sync.c` -/

namespace Uwan.C

/-- The event of an overflow in a shift. -/
def Marked (w : Around) : Prop := .cs .ubShift ∈ w.ev

theorem Marked.say {w : Around} (h : Marked w) (l : List CsEv) : Marked (w.say l) := by
  unfold Marked Around.say at *
  simp [h]

theorem marked_say {w : Around} {l : List CsEv} (h : .ubShift ∈ l) : Marked (w.say l) := by
  unfold Marked Around.say
  simp [h]

theorem iter_fault {ω : Type} {cond : M ω Bool} {step body : M ω Out} {n : Nat} {m : Mem ω} {e : Fault} (h : cond m = .ok (true, m)) (hb : body m = .error e) :
    iter cond step body (n + 1) m = .error e := by
  simp only [iter, M.bind, h, if_true, hb]

section
variable (send : Sender) (L k : Nat) (cb : CsCbs) (n : Nat) (fs : List Objs) (port : Byte) (mem : Bytes) (sz : Byte)

/-- One round of the loop. -/
theorem round_run (w : Around) {off : Nat} {mask : Byte} {c : Cs} {out tl : Bytes} {A : Objs} {corr per tok : Val} (hR : Ready cb off mask c out tl A corr per tok) (ho : off < sz.toNat) (hm : sz.toNat ≤ mem.length)
    (hL : 256 ≤ L) (hx : (byteAt mem off).toNat ≤ 31) (hk : mask &&& BitVec.ofNat 8 (2 ^ (byteAt mem off).toNat) = 0) :
    match csCmd cb mem sz w.unix (byteAt mem off) (off + 1) c out with
    | .ok r => ∃ tl' A' corr' per' tok', Ready cb r.1 (mask ||| BitVec.ofNat 8 (2 ^ (byteAt mem off).toNat)) r.2.1 r.2.2.1 tl' A' corr' per' tok' ∧
      exec (ansCtx send L k) (ansHead ansSwitch) (ansMem cb n port mem sz fs off mask c out tl A corr per tok w) =
        .ok (.next, ansMem cb n port mem sz fs r.1 (mask ||| BitVec.ofNat 8 (2 ^ (byteAt mem off).toNat)) r.2.1 r.2.2.1 tl' A' corr' per' tok'
          (w.say (marks (byteAt mem off).toNat ++ marks (byteAt mem off).toNat ++ r.2.2.2)))
    | .error _ => ∃ e, exec (ansCtx send L k) (ansHead ansSwitch) (ansMem cb n port mem sz fs off mask c out tl A corr per tok w) = .error e := by
  have hsz := sz.isLt
  obtain ⟨B, hB, hh⟩ := head_new send L k c (out ++ tl) n cb.period port mem fs w sz.toNat off out.length mask corr per tok ansSwitch hR.pre (by omega) ho hm hx hk
  have hs := switch_run send L k cb n fs (w.say (marks (byteAt mem off).toNat ++ marks (byteAt mem off).toNat)) port mem sz hx hk hB hR.cbs (off := off + 1) ho hm hL hR.corr hR.per hR.tok hR.room hR.len
  rw [around_unix] at hs
  have hh' : exec (ansCtx send L k) (ansHead ansSwitch) (ansMem cb n port mem sz fs off mask c out tl A corr per tok w) =
    exec (ansCtx send L k) ansSwitch (ansMem cb n port mem sz fs (off + 1) (mask ||| BitVec.ofNat 8 (2 ^ (byteAt mem off).toNat)) c out tl B corr per tok (w.say (marks (byteAt mem off).toNat ++ marks (byteAt mem off).toNat))) := hh
  rw [hh']
  cases hc : csCmd cb mem sz w.unix (byteAt mem off) (off + 1) c out with
  | error e =>
    rw [hc] at hs
    exact hs
  | ok r =>
    rw [hc] at hs
    obtain ⟨tl', A', corr', per', tok', h1, h2⟩ := hs
    rw [around_say] at h2
    exact ⟨tl', A', corr', per', tok', h1, h2⟩

theorem round_wild (w : Around) {off : Nat} {mask : Byte} {c : Cs} {out tl : Bytes} {A : Objs} {corr per tok : Val} (hR : Ready cb off mask c out tl A corr per tok) (ho : off < sz.toNat) (hm : sz.toNat ≤ mem.length)
    (hx : 32 ≤ (byteAt mem off).toNat) :
    exec (ansCtx send L k) (ansHead ansSwitch) (ansMem cb n port mem sz fs off mask c out tl A corr per tok w) = .error .arith :=
  head_wild send L k c (out ++ tl) n cb.period port mem fs w sz.toNat off out.length mask corr per tok ansSwitch hR.pre sz.isLt ho hm hx

theorem round_seen (w : Around) {off : Nat} {mask : Byte} {c : Cs} {out tl : Bytes} {A : Objs} {corr per tok : Val} (hR : Ready cb off mask c out tl A corr per tok) (ho : off < sz.toNat) (hm : sz.toNat ≤ mem.length)
    (hx : (byteAt mem off).toNat ≤ 31) (hk : mask &&& BitVec.ofNat 8 (2 ^ (byteAt mem off).toNat) ≠ 0) :
    ∃ B, Pre mask B ∧ exec (ansCtx send L k) (ansHead ansSwitch) (ansMem cb n port mem sz fs off mask c out tl A corr per tok w) =
      .ok (.brk, ⟨encCs c (out ++ tl) n cb.period (packetObjs port sz.toNat mem), ansFrame B sz.toNat (off + 1 : Nat) out.length mask corr per tok :: fs, w.say (marks (byteAt mem off).toNat)⟩) :=
  head_seen send L k c (out ++ tl) n cb.period port mem fs w sz.toNat off out.length mask corr per tok ansSwitch hR.pre sz.isLt ho hm hx hk

theorem ans_cond (w : Around) {off : Nat} {mask : Byte} {c : Cs} {out tl : Bytes} {A : Objs} {corr per tok : Val} (hR : Ready cb off mask c out tl A corr per tok) :
    M.bind (eval (ansCtx send L k) ansCond) isTrue (ansMem cb n port mem sz fs off mask c out tl A corr per tok w) =
      .ok (decide (off < sz.toNat), ansMem cb n port mem sz fs off mask c out tl A corr per tok w) := by
  have h1 : (ansFrame A sz.toNat off out.length mask corr per tok).get "offset" = some [.int .u8 off] := by
    rcases hR.pre with rfl | ⟨b, ha⟩
    · rfl
    · cases ha <;> rfl
  have h2 : (ansFrame A sz.toNat off out.length mask corr per tok).get "size" = some [.int .u8 sz.toNat] := by
    rcases hR.pre with rfl | ⟨b, ha⟩
    · rfl
    · cases ha <;> rfl
  have hl := sz.isLt
  have ho := hR.off
  unfold ansMem ansCond M.bind
  by_cases h : off < sz.toNat
  · have h' : (off : Int) < sz.toNat := by omega
    rw [decide_eq_true h]
    crun [h1, h2, h']
  · have h' : ¬ (off : Int) < sz.toNat := by omega
    rw [decide_eq_false h]
    crun [h1, h2, h']

/-- The frame behind the loop holds the length of the answer. -/
def Ended (out : Bytes) (f : Objs) : Prop := f.get "ans_buf_offset" = some [.int .u8 out.length]

theorem ended_frame {mask : Byte} {A : Objs} (h : Pre mask A) (s o : Int) (out : Bytes) (mask' : Byte) (corr per tok : Val) : Ended out (ansFrame A s o out.length mask' corr per tok) := by
  rcases h with rfl | ⟨b, ha⟩
  · rfl
  · cases ha <;> rfl


/-- The loop, where the model goes through. -/
theorem loop_run (hm : sz.toNat ≤ mem.length) (hL : 256 ≤ L) (j : Nat) : ∀ (w : Around) (off : Nat) (mask : Byte) (c : Cs) (out tl : Bytes) (A : Objs) (corr per tok : Val) (r : Cs × Bytes × List CsEv),
    Ready cb off mask c out tl A corr per tok → csLoop cb mem sz w.unix j off mask c out = .ok r → ∀ R, j < R →
    ∃ tl' f, r.2.1.length ≤ 9 ∧ r.2.1.length + tl'.length = 32 ∧ r.1.cbs = some cb ∧ Ended r.2.1 f ∧
      iter (M.bind (eval (ansCtx send L k) ansCond) isTrue) (exec (ansCtx send L k) .skip) (exec (ansCtx send L k) (ansHead ansSwitch)) R (ansMem cb n port mem sz fs off mask c out tl A corr per tok w) =
        .ok (.next, ⟨encCs r.1 (r.2.1 ++ tl') n cb.period (packetObjs port sz.toNat mem), f :: fs, w.say r.2.2⟩) := by
  induction j with
  | zero =>
    intro w off mask c out tl A corr per tok r hR h R hlt
    unfold csLoop at h
    obtain ⟨R, rfl⟩ : ∃ R', R = R' + 1 := ⟨R - 1, by omega⟩
    by_cases ho : off < sz.toNat
    · rw [if_pos ho] at h
      cases h
    · rw [if_neg ho] at h
      injection h with h
      subst h
      have hc := ans_cond send L k cb n fs port mem sz w hR
      rw [decide_eq_false ho] at hc
      have := room_le mask
      have := hR.room
      rw [iter_out hc]
      refine ⟨tl, _, by simp only; omega, hR.len, hR.cbs, ended_frame hR.pre sz.toNat off out mask corr per tok, ?_⟩
      rw [say_none]
      rfl
  | succ j ih =>
    intro w off mask c out tl A corr per tok r hR h R hlt
    unfold csLoop at h
    obtain ⟨R, rfl⟩ : ∃ R', R = R' + 1 := ⟨R - 1, by omega⟩
    have hc := ans_cond send L k cb n fs port mem sz w hR
    have h9 := room_le mask
    have hroom := hR.room
    by_cases ho : off < sz.toNat
    · rw [if_pos ho, orOob_at (by omega)] at h
      rw [decide_eq_true ho] at hc
      simp only [bind, Except.bind] at h
      by_cases hx : 31 ≤ (byteAt mem off).toNat
      · rw [if_pos hx] at h
        cases h
      · rw [if_neg hx] at h
        have hmk : marks (byteAt mem off).toNat = [] := if_neg (by omega)
        by_cases hk : mask &&& BitVec.ofNat 8 (2 ^ (byteAt mem off).toNat) = 0
        · rw [if_neg (not_not_intro hk)] at h
          have hr := round_run send L k cb n fs port mem sz w hR ho hm hL (by omega) hk
          cases hcmd : csCmd cb mem sz w.unix (byteAt mem off) (off + 1) c out with
          | error e =>
            rw [hcmd] at h
            cases h
          | ok q =>
            rw [hcmd] at h hr
            obtain ⟨tl', A', corr', per', tok', h1, h2⟩ := hr
            rw [hmk] at h2
            simp only [List.nil_append] at h2
            simp only at h
            cases hrest : csLoop cb mem sz w.unix j q.1 (mask ||| BitVec.ofNat 8 (2 ^ (byteAt mem off).toNat)) q.2.1 q.2.2.1 with
            | error e =>
              rw [hrest] at h
              cases h
            | ok t =>
              rw [hrest] at h
              injection h with h
              subst h
              obtain ⟨tl2, f, k1, k2, k3, k4, k5⟩ := ih (w.say q.2.2.2) _ _ _ _ _ _ _ _ _ _ h1 (by rw [around_unix]; exact hrest) R (by omega)
              refine ⟨tl2, f, k1, k2, k3, k4, ?_⟩
              rw [iter_next hc h2 (exec_skip _ _), k5, around_say]
        · rw [if_pos hk] at h
          injection h with h
          subst h
          obtain ⟨B, hpB, hb⟩ := round_seen send L k cb n fs port mem sz w hR ho hm (by omega) hk
          rw [hmk] at hb
          rw [iter_stop hc hb]
          refine ⟨tl, _, by simp only; omega, hR.len, hR.cbs, ended_frame hpB sz.toNat (off + 1 : Nat) out mask corr per tok, ?_⟩
          rfl
    · rw [if_neg ho] at h
      injection h with h
      subst h
      rw [decide_eq_false ho] at hc
      rw [iter_out hc]
      refine ⟨tl, _, by simp only; omega, hR.len, hR.cbs, ended_frame hR.pre sz.toNat off out mask corr per tok, ?_⟩
      rw [say_none]
      rfl

/-- After a recorded overflow the loop goes on, or does not end well; the record stays. -/
theorem loop_marked (hm : sz.toNat ≤ mem.length) (hL : 256 ≤ L) (R : Nat) : ∀ (w : Around) (off : Nat) (mask : Byte) (c : Cs) (out tl : Bytes) (A : Objs) (corr per tok : Val),
    Ready cb off mask c out tl A corr per tok → Marked w →
    (∃ e, iter (M.bind (eval (ansCtx send L k) ansCond) isTrue) (exec (ansCtx send L k) .skip) (exec (ansCtx send L k) (ansHead ansSwitch)) R (ansMem cb n port mem sz fs off mask c out tl A corr per tok w) = .error e) ∨
    ∃ c' out' tl' f w', Marked w' ∧ out'.length ≤ 9 ∧ Ended out' f ∧
      iter (M.bind (eval (ansCtx send L k) ansCond) isTrue) (exec (ansCtx send L k) .skip) (exec (ansCtx send L k) (ansHead ansSwitch)) R (ansMem cb n port mem sz fs off mask c out tl A corr per tok w) =
        .ok (.next, ⟨encCs c' (out' ++ tl') n cb.period (packetObjs port sz.toNat mem), f :: fs, w'⟩) := by
  induction R with
  | zero =>
    intro w off mask c out tl A corr per tok hR hw
    exact .inl ⟨_, rfl⟩
  | succ R ih =>
    intro w off mask c out tl A corr per tok hR hw
    have hc := ans_cond send L k cb n fs port mem sz w hR
    have h9 := room_le mask
    have hroom := hR.room
    by_cases ho : off < sz.toNat
    · rw [decide_eq_true ho] at hc
      by_cases hx : 32 ≤ (byteAt mem off).toNat
      · have hb := round_wild send L k cb n fs port mem sz w hR ho hm hx
        exact .inl ⟨_, iter_fault hc hb⟩
      by_cases hk : mask &&& BitVec.ofNat 8 (2 ^ (byteAt mem off).toNat) = 0
      · have hr := round_run send L k cb n fs port mem sz w hR ho hm hL (by omega) hk
        cases hcmd : csCmd cb mem sz w.unix (byteAt mem off) (off + 1) c out with
        | error e =>
          rw [hcmd] at hr
          obtain ⟨e, hb⟩ := hr
          exact .inl ⟨_, iter_fault hc hb⟩
        | ok q =>
          rw [hcmd] at hr
          obtain ⟨tl', A', corr', per', tok', h1, h2⟩ := hr
          rw [iter_next hc h2 (exec_skip _ _)]
          exact ih _ _ _ _ _ _ _ _ _ _ h1 (hw.say _)
      · obtain ⟨B, hpB, hb⟩ := round_seen send L k cb n fs port mem sz w hR ho hm (by omega) hk
        rw [iter_stop hc hb]
        exact .inr ⟨c, out, tl, _, _, hw.say _, by omega, ended_frame hpB sz.toNat (off + 1 : Nat) out mask corr per tok, rfl⟩
    · rw [decide_eq_false ho] at hc
      rw [iter_out hc]
      exact .inr ⟨c, out, tl, _, _, hw, by omega, ended_frame hR.pre sz.toNat off out mask corr per tok, rfl⟩

/-- The loop, where the model stops. -/
theorem loop_fault (hm : sz.toNat ≤ mem.length) (hL : 256 ≤ L) (j : Nat) : ∀ (w : Around) (off : Nat) (mask : Byte) (c : Cs) (out tl : Bytes) (A : Objs) (corr per tok : Val) (u : UB),
    Ready cb off mask c out tl A corr per tok → csLoop cb mem sz w.unix j off mask c out = .error u → u ≠ .diverge → ∀ R,
    (∃ e, iter (M.bind (eval (ansCtx send L k) ansCond) isTrue) (exec (ansCtx send L k) .skip) (exec (ansCtx send L k) (ansHead ansSwitch)) R (ansMem cb n port mem sz fs off mask c out tl A corr per tok w) = .error e) ∨
    ∃ c' out' tl' f w', Marked w' ∧ out'.length ≤ 9 ∧ Ended out' f ∧
      iter (M.bind (eval (ansCtx send L k) ansCond) isTrue) (exec (ansCtx send L k) .skip) (exec (ansCtx send L k) (ansHead ansSwitch)) R (ansMem cb n port mem sz fs off mask c out tl A corr per tok w) =
        .ok (.next, ⟨encCs c' (out' ++ tl') n cb.period (packetObjs port sz.toNat mem), f :: fs, w'⟩) := by
  induction j with
  | zero =>
    intro w off mask c out tl A corr per tok u hR h hu R
    unfold csLoop at h
    split at h
    · injection h with h
      exact absurd h.symm hu
    · cases h
  | succ j ih =>
    intro w off mask c out tl A corr per tok u hR h hu R
    unfold csLoop at h
    cases R with
    | zero => exact .inl ⟨_, rfl⟩
    | succ R =>
      have hc := ans_cond send L k cb n fs port mem sz w hR
      by_cases ho : off < sz.toNat
      · rw [if_pos ho, orOob_at (by omega)] at h
        rw [decide_eq_true ho] at hc
        simp only [bind, Except.bind] at h
        by_cases hw : 32 ≤ (byteAt mem off).toNat
        · exact .inl ⟨_, iter_fault hc (round_wild send L k cb n fs port mem sz w hR ho hm hw)⟩
        by_cases hx : 31 ≤ (byteAt mem off).toNat
        · have hx31 : (byteAt mem off).toNat = 31 := by omega
          have hmk : marks (byteAt mem off).toNat = [.ubShift] := if_pos hx31
          have hk : mask &&& BitVec.ofNat 8 (2 ^ (byteAt mem off).toNat) = 0 := by
            have : BitVec.ofNat 8 (2 ^ 31) = 0 := by decide
            rw [hx31, this]
            exact BitVec.and_zero
          have hr := round_run send L k cb n fs port mem sz w hR ho hm hL (by omega) hk
          cases hcmd : csCmd cb mem sz w.unix (byteAt mem off) (off + 1) c out with
          | error e =>
            rw [hcmd] at hr
            obtain ⟨e, hb⟩ := hr
            exact .inl ⟨_, iter_fault hc hb⟩
          | ok q =>
            rw [hcmd] at hr
            obtain ⟨tl', A', corr', per', tok', h1, h2⟩ := hr
            rw [iter_next hc h2 (exec_skip _ _)]
            exact loop_marked send L k cb n fs port mem sz hm hL R _ _ _ _ _ _ _ _ _ _ h1 (marked_say (by simp [hmk]))
        · rw [if_neg hx] at h
          by_cases hk : mask &&& BitVec.ofNat 8 (2 ^ (byteAt mem off).toNat) = 0
          · rw [if_neg (not_not_intro hk)] at h
            have hr := round_run send L k cb n fs port mem sz w hR ho hm hL (by omega) hk
            cases hcmd : csCmd cb mem sz w.unix (byteAt mem off) (off + 1) c out with
            | error e =>
              rw [hcmd] at hr
              obtain ⟨e, hb⟩ := hr
              exact .inl ⟨_, iter_fault hc hb⟩
            | ok q =>
              rw [hcmd] at h hr
              obtain ⟨tl', A', corr', per', tok', h1, h2⟩ := hr
              simp only at h
              cases hrest : csLoop cb mem sz w.unix j q.1 (mask ||| BitVec.ofNat 8 (2 ^ (byteAt mem off).toNat)) q.2.1 q.2.2.1 with
              | ok t =>
                rw [hrest] at h
                cases h
              | error e =>
                rw [hrest] at h
                injection h with h
                subst h
                rw [iter_next hc h2 (exec_skip _ _)]
                exact ih _ _ _ _ _ _ _ _ _ _ _ h1 (by rw [around_unix]; exact hrest) hu R
          · rw [if_pos hk] at h
            cases h
      · rw [if_neg ho] at h
        cases h
end

section
variable (send : Sender) (L k : Nat) (c : Cs) (buf : Bytes) (n : Nat) (port : Byte) (mem : Bytes) (sz : Byte) (fs : List Objs) (w : Around)

/-- The frame at the start of the loop. -/
def ansStart (sz : Byte) : Objs := ansFrame [] sz.toNat 0 0 0 (.uninit (some .i32)) (.uninit (some .u8)) (.uninit (some .u8))

/-- What is done behind the loop. -/
def ansEnd : Stmt :=
  .seq (.expr (.asg (.glob "ans_buf_data_size") (.load (.loc "ans_buf_offset"))))
    (.expr (.asg (.glob "ans_pending") (.bin .ne (.load (.loc "ans_buf_offset")) (.lit .i32 0))))

theorem answ_start {cb : CsCbs} (h : c.cbs = some cb) :
    exec (ansCtx send L k) ansAll ⟨encCs c buf n cb.period (packetObjs port sz.toNat mem), [("buf", [.ptr ⟨none, "pktmem", 0⟩]), ("size", [.int .u8 sz.toNat])] :: fs, w⟩ =
    exec (ansCtx send L k) (.seq (.loop ansCond .skip (ansHead ansSwitch)) ansEnd) ⟨encCs c buf n cb.period (packetObjs port sz.toNat mem), ansStart sz :: fs, w⟩ := by
  unfold ansAll ansStart ansFrame ansEnd
  generalize Stmt.loop ansCond .skip (ansHead ansSwitch) = T
  simp only [List.nil_append]
  crun [h, Option.isSome_some]
  try rfl

theorem answ_end {cb : CsCbs} {out tl : Bytes} {f : Objs} (hf : Ended out f) (ho : out.length ≤ 9) :
    exec (ansCtx send L k) ansEnd ⟨encCs c (out ++ tl) n cb.period (packetObjs port sz.toNat mem), f :: fs, w⟩ =
    .ok (.next, ⟨encCs { c with ansPending := !out.isEmpty } (out ++ tl) out.length cb.period (packetObjs port sz.toNat mem), f :: fs, w⟩) := by
  have hf' : f.get "ans_buf_offset" = some [.int .u8 out.length] := hf
  unfold ansEnd
  cases out with
  | nil =>
    simp only [List.length_nil, Int.natCast_zero] at hf'
    crun [hf', cput_size]
    rfl
  | cons a r =>
    have h0 : ((a :: r).length : Int) ≠ 0 := by simp only [List.length_cons]; omega
    generalize hn : ((a :: r).length) = q at *
    crun [hf', cput_size]
    rfl
end
end Uwan.C
