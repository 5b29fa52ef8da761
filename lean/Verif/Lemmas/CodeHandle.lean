import Verif.Lemmas.CodeParse

/-! # `handle_answ` and `uwan_clock_sync_handle_time_answ` of `ext/clock_sync.c`, called -/

namespace Uwan.C

/-- The answer kept by the model is the part of `ans_buf` in use. -/
structure Stored (c : Cs) (buf : Bytes) (n : Nat) : Prop where
  len : buf.length = 32
  small : n ≤ 9
  ans : c.ans = buf.take n

section
variable (send : Sender) (L k : Nat) (c : Cs) (buf : Bytes) (n : Nat) (port : Byte) (mem : Bytes) (sz : Byte) (fs : List Objs) (w : Around)

theorem crun_answ_none (h : c.cbs = none) (period : Bool) : call (clockHost send) Src.clockProg L (k + 2) "handle_answ" [.ptr ⟨none, "pktmem", 0⟩, .int .u8 sz.toNat] ⟨encCs c buf n period (packetObjs port sz.toNat mem), fs, w⟩ =
    .ok (.null, ⟨encCs c buf n period (packetObjs port sz.toNat mem), fs, w⟩) := by
  rw [ccall_fun cfind_handle_answ]
  have hl := sz.isLt
  unfold Src.handle_answ
  crun [h, Option.isSome_none]

theorem ready_start {cb : CsCbs} (h : c.cbs = some cb) (hb : buf.length = 32) : Ready cb 0 0 c [] buf [] (.uninit (some .i32)) (.uninit (some .u8)) (.uninit (some .u8)) :=
  ⟨h, by decide, .inl rfl, slot_uninit _, slot_uninit _, slot_uninit _, by simp, by simpa using hb⟩

theorem crun_answ {cb : CsCbs} (h : c.cbs = some cb) (hb : buf.length = 32) (hm : sz.toNat ≤ mem.length) (hL : 513 ≤ L) {r : Cs × List CsEv} (hr : handleAnsw c mem sz w.unix = .ok r) :
    ∃ buf' n', Stored r.1 buf' n' ∧ r.1.cbs = some cb ∧
      call (clockHost send) Src.clockProg L (k + 2) "handle_answ" [.ptr ⟨none, "pktmem", 0⟩, .int .u8 sz.toNat] ⟨encCs c buf n cb.period (packetObjs port sz.toNat mem), fs, w⟩ =
        .ok (.null, ⟨encCs r.1 buf' n' cb.period (packetObjs port sz.toNat mem), fs, w.say r.2⟩) := by
  unfold handleAnsw at hr
  rw [h] at hr
  simp only [bind, Except.bind] at hr
  cases hl : csLoop cb mem sz w.unix 512 0 0 c [] with
  | error e =>
    rw [hl] at hr
    cases hr
  | ok q =>
    rw [hl] at hr
    injection hr with hr
    subst hr
    obtain ⟨tl, f, k1, k2, k3, k4, k5⟩ := loop_run send L k cb n fs port mem sz hm (by omega) 512 w 0 0 c [] buf [] _ _ _ q (ready_start c buf h hb) hl L (by omega)
    refine ⟨q.2.1 ++ tl, q.2.1.length, ⟨by simpa using k2, k1, by simp⟩, k3, ?_⟩
    have h1 := answ_start send L k c buf n port mem sz fs w h
    have h2 := answ_end send L k q.1 n port mem sz fs (w.say q.2.2) (cb := cb) (tl := tl) k4 k1
    rw [seq_next (by rw [exec_loop]; exact k5), h2] at h1
    rw [ccall_fun cfind_handle_answ]
    have hz := sz.isLt
    have hb := handle_answ_body
    have hres : Src.handle_answ.result = none := rfl
    have hpar : Src.handle_answ.params = [("buf", none), ("size", some .u8)] := rfl
    unfold ansCtx at h1
    crun [hpar, hb, h1, hres]
    try rfl

theorem crun_answ_fault {cb : CsCbs} (h : c.cbs = some cb) (hb : buf.length = 32) (hm : sz.toNat ≤ mem.length) (hL : 513 ≤ L) {u : UB} (hr : handleAnsw c mem sz w.unix = .error u) (hu : u ≠ .diverge) :
    (∃ e, call (clockHost send) Src.clockProg L (k + 2) "handle_answ" [.ptr ⟨none, "pktmem", 0⟩, .int .u8 sz.toNat] ⟨encCs c buf n cb.period (packetObjs port sz.toNat mem), fs, w⟩ = .error e) ∨
    ∃ g' w', Marked w' ∧ call (clockHost send) Src.clockProg L (k + 2) "handle_answ" [.ptr ⟨none, "pktmem", 0⟩, .int .u8 sz.toNat] ⟨encCs c buf n cb.period (packetObjs port sz.toNat mem), fs, w⟩ =
        .ok (.null, ⟨g', fs, w'⟩) := by
  unfold handleAnsw at hr
  rw [h] at hr
  simp only [bind, Except.bind] at hr
  rw [ccall_fun cfind_handle_answ]
  have hz := sz.isLt
  have hbd := handle_answ_body
  have hres : Src.handle_answ.result = none := rfl
  have hpar : Src.handle_answ.params = [("buf", none), ("size", some .u8)] := rfl
  have h1 := answ_start send L k c buf n port mem sz fs w h
  cases hl : csLoop cb mem sz w.unix 512 0 0 c [] with
  | ok q =>
    rw [hl] at hr
    cases hr
  | error e =>
    rw [hl] at hr
    injection hr with hr
    subst hr
    rcases loop_fault send L k cb n fs port mem sz hm (by omega) 512 w 0 0 c [] buf [] _ _ _ e (ready_start c buf h hb) hl hu L with ⟨e', he⟩ | ⟨c', out', tl', f, w', hw, h9, hf, he⟩
    · left
      rw [seq_fault (by rw [exec_loop]; exact he)] at h1
      unfold ansCtx at h1
      exact ⟨e', by crun [hpar, hbd, h1, hres]⟩
    · right
      have h2 := answ_end send L k c' n port mem sz fs w' (cb := cb) (tl := tl') hf h9
      rw [seq_next (by rw [exec_loop]; exact he), h2] at h1
      unfold ansCtx at h1
      exact ⟨_, w', hw, by crun [hpar, hbd, h1, hres]; rfl⟩

/-- The callback table the application gave. -/
def Table (c : Cs) (period : Bool) : Prop := ∀ cb, c.cbs = some cb → cb.period = period

theorem handle_text (err : Err) (mt : Val) (period : Bool) (hk : Stored c buf n) (ht : Table c period) (hm : sz.toNat ≤ mem.length) (hL : 513 ≤ L) (hmt : ∃ v : U32, mt = u32Val v) :
    match csHandle c err port mem sz w.unix with
    | .ok r => ∃ buf' n', Stored r.1 buf' n' ∧ r.1.cbs = c.cbs ∧
      call (clockHost send) Src.clockProg L (k + 3) "uwan_clock_sync_handle_time_answ" [enumVal (Err.num err), mt, globPtr "pkt"] ⟨encCs c buf n period (packetObjs port sz.toNat mem), fs, w⟩ =
        .ok (.null, ⟨encCs r.1 buf' n' period (packetObjs port sz.toNat mem), fs, w.say r.2⟩)
    | .error u => u ≠ .diverge →
      (∃ e, call (clockHost send) Src.clockProg L (k + 3) "uwan_clock_sync_handle_time_answ" [enumVal (Err.num err), mt, globPtr "pkt"] ⟨encCs c buf n period (packetObjs port sz.toNat mem), fs, w⟩ = .error e) ∨
      ∃ g' w', Marked w' ∧ call (clockHost send) Src.clockProg L (k + 3) "uwan_clock_sync_handle_time_answ" [enumVal (Err.num err), mt, globPtr "pkt"] ⟨encCs c buf n period (packetObjs port sz.toNat mem), fs, w⟩ =
        .ok (.null, ⟨g', fs, w'⟩) := by
  obtain ⟨v, rfl⟩ := hmt
  have hv := v.isLt
  have hz := sz.isLt
  rw [ccall_fun cfind_handle]
  unfold csHandle Src.uwan_clock_sync_handle_time_answ
  by_cases he : err = .no
  · subst he
    rw [if_neg (by simp)]
    simp only
    obtain ⟨cbs, rp, tk, an, ap, nr⟩ := c
    have hk1 : Stored ⟨cbs, false, tk, an, false, nr⟩ buf n := ⟨hk.len, hk.small, hk.ans⟩
    by_cases hs : sz ≠ 0 ∧ port = 202
    · rw [if_pos hs]
      have hs1 : (sz.toNat : Int) ≠ 0 := fun h => hs.1 (BitVec.eq_of_toNat_eq (by simpa using (by omega : sz.toNat = 0)))
      obtain ⟨hs2, rfl⟩ := hs
      have hn0 : Err.num .no = 0 := rfl
      have h202 : ((202 : Byte).toNat : Int) = 202 := rfl
      cases cbs with
      | none =>
        have hc := fun fs => crun_answ_none send L k ⟨none, false, tk, an, false, nr⟩ buf n 202 mem sz fs w rfl period
        show ∃ buf' n', _
        refine ⟨buf, n, hk1, rfl, ?_⟩
        rw [say_none]
        cases rp <;> crun [hc, hn0, h202]
      | some cb =>
        obtain rfl : cb.period = period := ht cb rfl
        cases hr : handleAnsw ⟨some cb, false, tk, an, false, nr⟩ mem sz w.unix with
        | ok r =>
          simp only
          have hc := fun fs => crun_answ send L k ⟨some cb, false, tk, an, false, nr⟩ buf n 202 mem sz fs w rfl hk.len hm hL hr
          obtain ⟨buf', n', q1, q2, q3⟩ := hc ([("err", [.int .u32 0]), ("m_type", [.int .u32 v.toNat]), ("pkt", [.ptr ⟨none, "pkt", 0⟩])] :: fs)
          refine ⟨buf', n', q1, q2, ?_⟩
          cases rp <;> crun [q3, hn0, h202, Int.natCast_zero]
        | error u =>
          simp only
          intro hu
          rcases crun_answ_fault send L k ⟨some cb, false, tk, an, false, nr⟩ buf n 202 mem sz ([("err", [.int .u32 0]), ("m_type", [.int .u32 v.toNat]), ("pkt", [.ptr ⟨none, "pkt", 0⟩])] :: fs) w rfl hk.len hm hL hr hu with ⟨e, q⟩ | ⟨g', w', hw, q⟩
          · exact .inl ⟨e, by cases rp <;> crun [q, hn0, h202, Int.natCast_zero]⟩
          · exact .inr ⟨g', w', hw, by cases rp <;> crun [q, hn0, h202, Int.natCast_zero]⟩
    · rw [if_neg hs]
      simp only
      refine ⟨buf, n, hk1, trivial, ?_⟩
      rw [say_none]
      have hn0 : Err.num .no = 0 := rfl
      by_cases h0 : sz = 0
      · have h0' : (sz.toNat : Int) = 0 := by rw [h0]; rfl
        cases rp <;> crun [hn0, h0']
      · have hs1 : (sz.toNat : Int) ≠ 0 := fun h => h0 (BitVec.eq_of_toNat_eq (by simpa using (by omega : sz.toNat = 0)))
        have hp : (port.toNat : Int) ≠ 202 := fun h => hs ⟨h0, BitVec.eq_of_toNat_eq (by simpa using (by omega : port.toNat = 202))⟩
        cases rp <;> crun [hn0]
  · rw [if_pos he]
    simp only
    refine ⟨buf, n, hk, trivial, ?_⟩
    rw [say_none]
    have hne : ((Err.num err : Nat) : Int) ≠ 0 := by
      cases err <;> first | exact absurd rfl he | decide
    have hlt : Err.num err < 4294967296 := by cases err <;> decide
    generalize Err.num err = en at *
    crun []
end
end Uwan.C
