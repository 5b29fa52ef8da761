import Verif.Lemmas.SyncReenter
import Verif.Props.TimeServer
import Verif.Props.Exchange

/-!
# Sending from inside the callbacks of the clock synchronisation package (C123)
-/

namespace Uwan
open Spec

variable {E : Env} {log : List SItem}

theorem handling_of {s : Sys} (h : SHist E log s) : Handling { s with cs := { s.cs with reqPending := false, ansPending := false } } := by
  obtain ⟨l, hl, -⟩ := stack_hist h
  exact ⟨hl.inv, (sync_hist h).len, rfl⟩

theorem masks_nil : Masks 0 [] := fun k => by simp

/-- C123: when the application is told of a packet for the package, the packet is a part of the buffer the next frame is built in, with at least four more
bytes behind it. -/
theorem C123_memory {it : SItem} {s : Sys} (h : SHist E (log ++ [it]) s) {m mt : Byte} {o : Oracle} {pkt : DlPkt} {data : Bytes} (hop : it.op = .stack (.event m o))
    (hd : .st (.downlink .no mt pkt) ∈ it.ev) (hport : pkt.fPort = 202) (hdata : pkt.data = some data) (hne : data ≠ []) :
    ∃ base, base ≤ 24 ∧ base + data.length + 4 ≤ 255 ∧ (s.stack.frame.drop base).take data.length = data := by
  obtain ⟨s0, h0, -, rfl, hv, hs⟩ := h.last
  rw [hop] at hs
  obtain ⟨⟨r, st, ev⟩, hst, hs⟩ := bind_ok hs
  simp only [Except.ok.injEq, Prod.mk.injEq] at hs
  obtain ⟨-, hs2, hs3⟩ := hs
  rw [← hs3] at hd
  rw [← hs2]
  obtain ⟨e, hd, he⟩ := List.mem_map.mp hd
  injection he with he
  subst he
  obtain ⟨l, hl, -⟩ := stack_hist h0
  rw [hop] at hv
  have hl' := hl.snoc (show Op.Valid (.event m o) from hv) hst
  obtain ⟨pre, hpre, -⟩ := C36_callback hl' _ _ _ hd
  replace hpre : ev = pre ++ [.downlink .no mt pkt] := hpre
  have hcase := step_event hl.inv hst
  obtain ⟨⟨st', ev'⟩, he, hok⟩ := bind_ok (show (evtHandler E o s0.stack m).bind _ = _ from hst)
  simp only [Except.ok.injEq, Prod.mk.injEq] at hok
  obtain ⟨-, rfl, rfl⟩ := hok
  unfold evtHandler at he
  cases hph : s0.stack.phase <;> rw [hph] at he <;> simp only at he
  · simp only [Except.ok.injEq, Prod.mk.injEq] at he
    rw [← he.2] at hd; cases hd
  · simp only [Except.ok.injEq, Prod.mk.injEq] at he
    rw [← he.2] at hd; cases hd
  · cases hcase with
    | ignore => cases hd
    | txDone mm ev2 _ _ hmac =>
      rcases List.mem_append.mp hd with hd | hd
      · simp at hd
      · exact Bool.noConfusion ((macOnTxComplete_quiet hmac).all _ hd)
    | rx1Timeout _ hp => rw [hph] at hp; cases hp
    | rx1Done _ _ hp => rw [hph] at hp; cases hp
    | rx2Timeout _ _ hp => rw [hph] at hp; cases hp
    | rx2Done _ _ hp => rw [hph] at hp; cases hp
  · unfold evtRx1 at he
    split at he
    · obtain ⟨x, -, he⟩ := bind_ok he
      simp only [Except.ok.injEq, Prod.mk.injEq] at he
      rw [← he.2] at hd; simp at hd
    split at he
    · obtain ⟨⟨s1, e1⟩, hdl, he⟩ := bind_ok he
      simp only [Except.ok.injEq, Prod.mk.injEq] at he
      obtain ⟨rfl, hev⟩ := he
      rw [hpre] at hev
      cases pre with
      | nil => simp at hev
      | cons a pre =>
        simp only [List.cons_append, List.cons.injEq] at hev
        rw [hev.2] at hdl
        exact handleDownlink_frame hdl hport hdata hne
    · simp only [Except.ok.injEq, Prod.mk.injEq] at he
      rw [← he.2] at hd; cases hd
  · unfold evtRx2 at he
    rw [hpre] at he
    split at he
    · exact handleDownlink_frame he hport hdata hne
    split at he
    · exact handleDownlink_frame he hport hdata hne
    · simp only [Except.ok.injEq, Prod.mk.injEq] at he
      simp at he

/-- What `csHandleR` does with a packet for the package. -/
theorem handleR_eq {A : SyncInside} {s : Sys} {cb : CsCbs} {base : Nat} {size : Byte} {unix : U32} (hcb : s.cs.cbs = some cb) (hsz : size ≠ 0) :
    csHandleR E A s .no 202 base size unix =
      (csLoopR E A cb base size unix 512 0 0 { s with cs := { s.cs with reqPending := false, ansPending := false } } []).bind fun x =>
        .ok ({ x.1 with cs := { x.1.cs with ans := x.2.1, ansPending := !x.2.1.isEmpty } }, x.2.2) := by
  obtain ⟨st, ⟨cbs, rp, tk, an, ap, nr⟩⟩ := s
  replace hcb : cbs = some cb := hcb
  subst hcb
  unfold csHandleR
  rw [if_neg (by simp)]
  simp only
  rw [if_pos ⟨hsz, trivial⟩]
  rfl

theorem handle_loop {c : Cs} {cb : CsCbs} {mem : Bytes} {size : Byte} {unix : U32} (hcb : c.cbs = some cb) (hsz : size ≠ 0) :
    csHandle c .no 202 mem size unix = (csLoop cb mem size unix 512 0 0 { c with reqPending := false, ansPending := false } []).bind fun x =>
      .ok ({ x.1 with ans := x.2.1, ansPending := !x.2.1.isEmpty }, x.2.2) := by
  obtain ⟨cbs, rp, tk, an, ap, nr⟩ := c
  replace hcb : cbs = some cb := hcb
  subst hcb
  unfold csHandle
  rw [if_neg (by simp)]
  simp only
  rw [if_pos ⟨hsz, trivial⟩]
  rfl

/-- Packets that are not for the package, or when it has not been started. -/
theorem handleR_other {A : SyncInside} {s : Sys} {err : Err} {port : Byte} {base : Nat} {size : Byte} {unix : U32}
    (h : ¬ (err = .no ∧ size ≠ 0 ∧ port = 202 ∧ s.cs.cbs.isSome)) {mem : Bytes} :
    ∃ c, csHandleR E A s err port base size unix = .ok ({ s with cs := c }, []) ∧ csHandle s.cs err port mem size unix = .ok (c, []) := by
  unfold csHandleR csHandle
  by_cases he : err = .no
  · subst he
    have hn : ¬ (Err.no ≠ Err.no) := fun h => h rfl
    rw [if_neg hn, if_neg hn]
    simp only
    by_cases hp : size ≠ 0 ∧ port = 202
    · rw [if_pos hp, if_pos hp]
      unfold handleAnswR handleAnsw
      simp only
      cases hc : s.cs.cbs with
      | none => exact ⟨_, rfl, rfl⟩
      | some cb => exact absurd ⟨rfl, hp.1, hp.2, by rw [hc]; rfl⟩ h
    · rw [if_neg hp, if_neg hp]
      exact ⟨_, rfl, rfl⟩
  · rw [if_pos he, if_pos he]
    exact ⟨_, rfl, rfl⟩

/-- C123: whatever is called inside, a packet in the buffer is handled without access outside the buffer, without calling through a null
pointer, without an endless loop and without undefined behaviour in the calls inside: only the arithmetic of C66 and C67 remains (an identifier from
31 on, a period from 6 on). -/
theorem C123_safe {s : Sys} (h : SHist E log s) {A : SyncInside} (hA : SyncFit A) (err : Err) (port : Byte) {base : Nat} {size : Byte} (hb : base + size.toNat < 255)
    (unix : U32) {u : UB} (hu : csHandleR E A s err port base size unix = .error u) : u = .arith := by
  by_cases hc : err = .no ∧ size ≠ 0 ∧ port = 202 ∧ s.cs.cbs.isSome
  · obtain ⟨rfl, h1, rfl, h2⟩ := hc
    obtain ⟨cb, hcb⟩ := Option.isSome_iff_exists.mp h2
    rw [handleR_eq hcb h1] at hu
    rcases csLoopR_in (E := E) (cb := cb) (unix := unix) hA hb 512 0 0 [] _ [] (handling_of h) masks_nil (by decide) (by omega) with he | ⟨s', out, ev, he, -⟩
    · rw [he] at hu
      injection hu with hu
      exact hu.symm
    · rw [he] at hu; cases hu
  · obtain ⟨c, h1, -⟩ := handleR_other (E := E) (A := A) (base := base) (unix := unix) hc (mem := [])
    rw [h1] at hu; cases hu

theorem size_toNat {data : Bytes} (h : data.length < 255) : (BitVec.ofNat 8 data.length).toNat = data.length := by
  rw [BitVec.toNat_ofNat]; exact Nat.mod_eq_of_lt (by omega)

theorem size_ne {data : Bytes} (h : data.length < 255) (hd : data ≠ []) : BitVec.ofNat 8 data.length ≠ 0 := by
  intro h0
  have := congrArg BitVec.toNat h0
  rw [size_toNat h] at this
  exact hd (List.length_eq_zero_iff.mp this)

/-- C123, partial: when the calls inside send no frame, the packet is handled as if they were not made: the package makes the same calls, in the same
order, and is afterwards in the same state as in C63 to C68 (but for the flag of a time request that was tried inside). Missing: calls
inside that send, except in the last command, see `C123_last`; there the packet is overwritten while it is read, see `C123_overwritten` and `C123_lost`. -/
theorem C123_kept_partial {s s' : Sys} (h : SHist E log s) {A : SyncInside} (hA : SyncFit A) (err : Err) (port : Byte) {base : Nat} {data : Bytes}
    (hb : base + data.length < 255) (hm : (s.stack.frame.drop base).take data.length = data) {unix : U32} {ev : List (CsEv × List SEv)}
    (hr : csHandleR E A s err port base (BitVec.ofNat 8 data.length) unix = .ok (s', ev)) (hq : ∀ x ∈ ev, silent x.2) :
    ∃ s1, sysStep E s (.csHandle err port data ((s.stack.frame.drop base).drop data.length) unix) = .ok (.unit, s1, outer ev) ∧
      s'.cs = { s1.cs with reqPending := s'.cs.reqPending } ∧ s'.stack.frame = s.stack.frame := by
  have hmem : data ++ (s.stack.frame.drop base).drop data.length = s.stack.frame.drop base := by
    conv => lhs; lhs; rw [← hm]
    exact List.take_append_drop ..
  have hsz := size_toNat (data := data) (by omega)
  have hstep : sysStep E s (.csHandle err port data ((s.stack.frame.drop base).drop data.length) unix) =
      (csHandle s.cs err port (s.stack.frame.drop base) (BitVec.ofNat 8 data.length) unix).bind fun x => .ok (.unit, { s with cs := x.1 }, x.2.map .cs) := by
    show (csHandle s.cs err port _ _ unix).bind _ = _
    rw [hmem]
  rw [hstep]
  by_cases hc : err = .no ∧ BitVec.ofNat 8 data.length ≠ 0 ∧ port = 202 ∧ s.cs.cbs.isSome
  · obtain ⟨rfl, h1, rfl, h2⟩ := hc
    obtain ⟨cb, hcb⟩ := Option.isSome_iff_exists.mp h2
    rw [handleR_eq hcb h1] at hr
    rcases csLoopR_in (E := E) (cb := cb) (unix := unix) hA (size := BitVec.ofNat 8 data.length) (by rw [hsz]; exact hb) 512 0 0 [] _ [] (handling_of h) masks_nil (by decide)
      (by omega) with he | ⟨s2, out, ev2, he, -, -, hk⟩
    · rw [he] at hr; cases hr
    rw [he] at hr
    simp only [Except.bind, Except.ok.injEq, Prod.mk.injEq] at hr
    obtain ⟨rfl, rfl⟩ := hr
    obtain ⟨k1, k2⟩ := hk hq
    obtain ⟨c', k3, k4⟩ := k2 _ .rfl
    refine ⟨{ s with cs := { c' with ans := out, ansPending := !out.isEmpty } }, ?_, ?_, k1⟩
    · have hpl : csHandle s.cs .no 202 (s.stack.frame.drop base) (BitVec.ofNat 8 data.length) unix =
          .ok ({ c' with ans := out, ansPending := !out.isEmpty }, ev2.map Prod.fst) := by
        rw [handle_loop hcb h1, k3]; rfl
      rw [hpl]
      simp [Except.bind, outer]
    · show ({ s2.cs with ans := out, ansPending := !out.isEmpty } : Cs) = _
      rw [show s2.cs = { c' with reqPending := s2.cs.reqPending } from k4]
  · obtain ⟨c, h1, h2⟩ := handleR_other (E := E) (A := A) (base := base) (unix := unix) hc (mem := s.stack.frame.drop base)
    rw [h1] at hr
    simp only [Except.ok.injEq, Prod.mk.injEq] at hr
    obtain ⟨rfl, rfl⟩ := hr
    refine ⟨{ s with cs := c }, by rw [h2]; rfl, rfl, rfl⟩

/-- C123: the callback that asks the device to resynchronise may send when its command is the last of the packet: for a packet of complete commands that
ends with a ForceDeviceResyncReq and has no other, the package makes the calls and holds the answers it would without calls inside, when no other callback sends. -/
theorem C123_last {s s' : Sys} (h : SHist E log s) {A : SyncInside} (hA : SyncFit A) {base : Nat} {msgs : List SyncMsg} {k : Byte} {data : Bytes}
    (hd : data = msgs.flatMap SyncMsg.bytes ++ [3, k]) (hms : ∀ m ∈ msgs, m.cid ≠ 3)
    (hb : base + data.length < 255) (hm : (s.stack.frame.drop base).take data.length = data) {unix : U32} {ev : List (CsEv × List SEv)}
    (hr : csHandleR E A s .no 202 base (BitVec.ofNat 8 data.length) unix = .ok (s', ev)) (hq : ∀ x ∈ ev, x.1 ≠ .resync → silent x.2) :
    ∃ s1, sysStep E s (.csHandle .no 202 data ((s.stack.frame.drop base).drop data.length) unix) = .ok (.unit, s1, outer ev) ∧
      s'.cs = { s1.cs with reqPending := s'.cs.reqPending } := by
  have hmem : data ++ (s.stack.frame.drop base).drop data.length = s.stack.frame.drop base := by
    conv => lhs; lhs; rw [← hm]
    exact List.take_append_drop ..
  have hne : data ≠ [] := by rw [hd]; simp
  have hsz := size_toNat (data := data) (by omega)
  have hs0 := size_ne (by omega) hne
  cases hcb : s.cs.cbs with
  | none =>
    obtain ⟨c, h1, h2⟩ := handleR_other (E := E) (A := A) (err := .no) (port := 202) (base := base) (size := BitVec.ofNat 8 data.length) (unix := unix)
      (s := s) (by rw [hcb]; simp) (mem := s.stack.frame.drop base)
    rw [h1] at hr
    simp only [Except.ok.injEq, Prod.mk.injEq] at hr
    obtain ⟨rfl, rfl⟩ := hr
    refine ⟨{ s with cs := c }, ?_, rfl⟩
    show (csHandle s.cs .no 202 _ _ unix).bind _ = _
    rw [hmem, h2]; rfl
  | some cb =>
    rw [handleR_eq hcb hs0] at hr
    obtain ⟨⟨s2, out, ev2⟩, hl, hr⟩ := bind_ok hr
    simp only [Except.ok.injEq, Prod.mk.injEq] at hr
    obtain ⟨rfl, rfl⟩ := hr
    obtain ⟨c', k3, k4⟩ := csLoopR_last (E := E) (cb := cb) (unix := unix) hA (size := BitVec.ofNat 8 data.length) (by rw [hsz]; exact hb) (k := k)
      (tail := (s.stack.frame.drop base).drop data.length) msgs hms 512 0 0 [] _ [] _ (handling_of h) masks_nil (by decide) .rfl (by omega)
      (by rw [← hd]; exact hmem.symm) (by rw [← hd, hsz]; omega) _ _ _ hl hq
    refine ⟨{ s with cs := { c' with ans := out, ansPending := !out.isEmpty } }, ?_, ?_⟩
    · show (csHandle s.cs .no 202 _ _ unix).bind _ = _
      rw [hmem, handle_loop hcb hs0, k3]
      simp [Except.bind, outer]
    · show ({ s2.cs with ans := out, ansPending := !out.isEmpty } : Cs) = _
      rw [show s2.cs = { c' with reqPending := s2.cs.reqPending } from k4]

theorem sysRun_nil (s : Sys) : sysRun E s [] = .ok (s, []) := rfl

theorem csCmdR_none {cb : CsCbs} {base : Nat} {size : Byte} {unix : U32} {cmd : Byte} {off : Nat} {st : St} {c : Cs} {out : Bytes} :
    csCmdR E .none cb base size unix cmd off ⟨st, c⟩ out =
      (csCmd cb (st.frame.drop base) size unix cmd off c out).map fun x => (x.1, ⟨st, x.2.1⟩, x.2.2.1, x.2.2.2.map fun e => (e, [])) := by
  unfold csCmdR csCmd
  simp only [List.getElem?_drop, SyncInside.none, sysRun_nil]
  by_cases h0 : cmd = 0
  · rw [if_pos h0, if_pos h0]
    cases csPush out [0x0, 1, 1] <;> rfl
  rw [if_neg h0, if_neg h0]
  by_cases h1 : cmd = 1
  · rw [if_pos h1, if_pos h1]
    by_cases hz : size.toNat < off + 5
    · rw [if_pos hz, if_pos hz]; rfl
    rw [if_neg hz, if_neg hz]
    cases orOob st.frame[base + off]? with
    | error _ => rfl
    | ok a => cases orOob st.frame[base + (off + 1)]? with
      | error _ => rfl
      | ok b => cases orOob st.frame[base + (off + 2)]? with
        | error _ => rfl
        | ok d => cases orOob st.frame[base + (off + 3)]? with
          | error _ => rfl
          | ok e => cases orOob st.frame[base + (off + 4)]? with
            | error _ => rfl
            | ok t =>
              simp only [bind, Except.bind]
              by_cases ht : t &&& 0xf = c.token
              · rw [if_pos ht, if_pos ht]
                by_cases he : 128 ≤ e.toNat
                · rw [if_pos he, if_pos he]; rfl
                · rw [if_neg he, if_neg he]; rfl
              · rw [if_neg ht, if_neg ht]
                by_cases he : 128 ≤ e.toNat
                · rw [if_pos he, if_pos he]; rfl
                · rw [if_neg he, if_neg he]; rfl
  rw [if_neg h1, if_neg h1]
  by_cases h2 : cmd = 2
  · rw [if_pos h2, if_pos h2]
    by_cases hz : size.toNat < off + 1
    · rw [if_pos hz, if_pos hz]; rfl
    rw [if_neg hz, if_neg hz]
    cases orOob st.frame[base + off]? with
    | error _ => rfl
    | ok p =>
      simp only [bind, Except.bind, csPeriodR, csPeriod]
      by_cases hp : cb.period = true
      · rw [if_pos hp, if_pos hp]
        cases periodOf p with
        | error _ => rfl
        | ok sec =>
          simp only [sysRun_nil, Except.map]
          cases csPush out ([0x2, 0] ++ gpsBytes unix) <;> rfl
      · rw [if_neg hp, if_neg hp]
        simp only
        cases csPush out ([0x2, 1] ++ gpsBytes unix) <;> rfl
  rw [if_neg h2, if_neg h2]
  by_cases h3 : cmd = 3
  · rw [if_pos h3, if_pos h3]
    cases orOob st.frame[base + off]? with
    | error _ => rfl
    | ok b =>
      simp only [bind, Except.bind]
      by_cases hn : b &&& 0x7 ≠ 0
      · rw [if_pos hn, if_pos hn]; rfl
      · rw [if_neg hn, if_neg hn]; rfl
  rw [if_neg h3, if_neg h3]
  rfl

theorem csLoopR_none {cb : CsCbs} {base : Nat} {size : Byte} {unix : U32} : ∀ n off mask (st : St) (c : Cs) out,
    csLoopR E .none cb base size unix n off mask ⟨st, c⟩ out =
      (csLoop cb (st.frame.drop base) size unix n off mask c out).map fun x => (⟨st, x.1⟩, x.2.1, x.2.2.map fun e => (e, [])) := by
  intro n
  induction n with
  | zero =>
    intro off mask st c out
    unfold csLoopR csLoop
    split <;> rfl
  | succ n ih =>
    intro off mask st c out
    unfold csLoopR csLoop
    by_cases ho : off < size.toNat
    · rw [if_pos ho, if_pos ho]
      simp only [List.getElem?_drop]
      cases orOob st.frame[base + off]? with
      | error _ => rfl
      | ok cmd =>
        simp only [bind, Except.bind]
        by_cases hc : 31 ≤ cmd.toNat
        · rw [if_pos hc, if_pos hc]; rfl
        rw [if_neg hc, if_neg hc]
        by_cases hm : mask &&& BitVec.ofNat 8 (2 ^ cmd.toNat) ≠ 0
        · rw [if_pos hm, if_pos hm]; rfl
        rw [if_neg hm, if_neg hm, csCmdR_none]
        cases csCmd cb (st.frame.drop base) size unix cmd (off + 1) c out with
        | error _ => rfl
        | ok x =>
          obtain ⟨o, c2, out2, ev⟩ := x
          simp only [Except.map]
          rw [ih]
          cases csLoop cb (st.frame.drop base) size unix n o (mask ||| BitVec.ofNat 8 (2 ^ cmd.toNat)) c2 out2 with
          | error _ => rfl
          | ok y => simp [Except.map]
    · rw [if_neg ho, if_neg ho]; rfl

/-- C123: without calls inside, this is the handling of packets of C63 to C68, errors included. -/
theorem C123_none (s : Sys) (err : Err) (port : Byte) {base : Nat} {data : Bytes}
    (hm : (s.stack.frame.drop base).take data.length = data) (unix : U32) :
    sysStep E s (.csHandle err port data ((s.stack.frame.drop base).drop data.length) unix) =
      (csHandleR E .none s err port base (BitVec.ofNat 8 data.length) unix).map fun x => (.unit, x.1, outer x.2) := by
  have hmem : data ++ (s.stack.frame.drop base).drop data.length = s.stack.frame.drop base := by
    conv => lhs; lhs; rw [← hm]
    exact List.take_append_drop ..
  show (csHandle s.cs err port _ _ unix).bind _ = _
  rw [hmem]
  by_cases hc : err = .no ∧ BitVec.ofNat 8 data.length ≠ 0 ∧ port = 202 ∧ s.cs.cbs.isSome
  · obtain ⟨rfl, h1, rfl, h2⟩ := hc
    obtain ⟨cb, hcb⟩ := Option.isSome_iff_exists.mp h2
    rw [handleR_eq hcb h1, handle_loop hcb h1, csLoopR_none]
    cases csLoop cb (s.stack.frame.drop base) (BitVec.ofNat 8 data.length) unix 512 0 0 { s.cs with reqPending := false, ansPending := false } [] with
    | error _ => rfl
    | ok x => simp [Except.map, Except.bind, outer]
  · obtain ⟨c, k1, k2⟩ := handleR_other (E := E) (A := .none) (base := base) (unix := unix) hc (mem := s.stack.frame.drop base)
    rw [k1, k2]
    rfl

/-! ### Witnesses and examples -/

/-- A device listens after it has sent a frame. -/
def heardOps : List SOp := csReady ++ [.stack (.send 1 [1] false 0), .stack (.event 4 (Tests.rxOf [])), .stack (.timer .rx1)]

/-- It is sent a packet of the package. -/
def heardOp (data : Bytes) : SOp :=
  .stack (.event 2 (Tests.rxOf ((⟨false, 0, 0, [], some (202, data)⟩ : Downlink).build Tests.xorEnv Tests.appKey Tests.appKey 0x01020304 7)))

theorem heardFine : SDemo.fine heardOps = true := by decide +kernel

/-- Afterwards. -/
def heard (data : Bytes) : Sys := (SDemo.nextItem heardOps (heardOp data)).post

/-- The application asks for the time when told to resynchronise. -/
def askAt (unix : U32) : SyncInside := ⟨[], [], [], [.csTimeReq true unix 0]⟩

theorem askAt_fit (unix : U32) : SyncFit (askAt unix) := by
  intro op h
  simp only [askAt, List.nil_append, List.mem_singleton] at h
  subst h
  exact ⟨trivial, rfl⟩

theorem heard_hist : SHist Tests.xorEnv (SDemo.items heardOps ++ [SDemo.nextItem heardOps (heardOp [3, 1, 0])]) (heard [3, 1, 0]) ∧
    (SDemo.nextItem heardOps (heardOp [3, 1, 0])).op = heardOp [3, 1, 0] :=
  SDemo.next heardFine (by decide +kernel) (by decide +kernel)

/-- What is left of handling a packet: whether an answer is kept, and which. -/
def leftOver (x : Except UB (Sys × List (CsEv × List SEv))) : Option (Bool × Bytes) :=
  match x with
  | .ok (s, _) => some (s.cs.ansPending, s.cs.ans)
  | .error _ => none

theorem leftOver_ok {x : Except UB (Sys × List (CsEv × List SEv))} {b : Bool} {a : Bytes} (h : leftOver x = some (b, a)) :
    ∃ s ev, x = .ok (s, ev) ∧ s.cs.ansPending = b ∧ s.cs.ans = a := by
  obtain u | ⟨s, ev⟩ := x
  · cases h
  · simp only [leftOver, Option.some.injEq, Prod.mk.injEq] at h
    exact ⟨s, ev, rfl, h.1, h.2⟩

/-- C123 fails: a packet asks the device to resynchronise and for the version of the package, in this order. An application that asks for the time in the callback
made for it has the rest of the packet overwritten by its own request, and undefined behaviour; without that call the packet is answered. -/
theorem C123_overwritten : ∃ log it s pkt, SHist Tests.xorEnv (log ++ [it]) s ∧ it.op = heardOp [3, 1, 0] ∧
    .st (.downlink .no 3 pkt) ∈ it.ev ∧ pkt.fPort = 202 ∧ pkt.data = some [3, 1, 0] ∧ (s.stack.frame.drop 9).take 3 = [3, 1, 0] ∧
    readSync [] [3, 1, 0] = [.resync 1, .version] ∧ SyncFit (askAt 1722419302) ∧
    (∃ s' ev, csHandleR Tests.xorEnv .none s .no 202 9 3 1722419302 = .ok (s', ev) ∧ s'.cs.ansPending = true ∧ s'.cs.ans = [0, 1, 1]) ∧
    csHandleR Tests.xorEnv (askAt 1722419302) s .no 202 9 3 1722419302 = .error .arith := by
  refine ⟨_, _, _, ⟨some [3, 1, 0], 202, 0xff88, 0xfb⟩, heard_hist.1, heard_hist.2, ?_, rfl, rfl, ?_, ?_, askAt_fit _, leftOver_ok ?_, ?_⟩
  all_goals decide +kernel

/-- C123 fails: at another time of day the question for the version is lost instead, without an error. -/
theorem C123_lost : ∃ log s, SHist Tests.xorEnv log s ∧ (s.stack.frame.drop 9).take 3 = [3, 1, 0] ∧
    (∃ s' ev, csHandleR Tests.xorEnv .none s .no 202 9 3 1722433126 = .ok (s', ev) ∧ s'.cs.ansPending = true ∧ s'.cs.ans = [0, 1, 1]) ∧
    ∃ s' ev, csHandleR Tests.xorEnv (askAt 1722433126) s .no 202 9 3 1722433126 = .ok (s', ev) ∧ s'.cs.ansPending = false ∧ s'.cs.ans = [] := by
  refine ⟨_, _, heard_hist.1, ?_, leftOver_ok ?_, leftOver_ok ?_⟩
  all_goals decide +kernel

/-- C123, the hypotheses of `C123_memory` and `C123_safe` are met: the packet above, and a request for the time made inside. -/
example : ∃ base, base ≤ 24 ∧ base + 3 + 4 ≤ 255 ∧ ((heard [3, 1, 0]).stack.frame.drop base).take 3 = [3, 1, 0] :=
  C123_memory (mt := 3) (pkt := ⟨some [3, 1, 0], 202, 0xff88, 0xfb⟩) heard_hist.1 heard_hist.2 (by decide +kernel) rfl rfl (by simp)

example : ∀ u, csHandleR Tests.xorEnv (askAt 1722419302) (heard [3, 1, 0]) .no 202 9 3 1722419302 = .error u → u = .arith :=
  fun _ hu => C123_safe heard_hist.1 (askAt_fit _) .no 202 (by decide) _ hu

/-- An application that asks whether it has joined, and whether something is waiting, in every callback. -/
def lookAround : SyncInside := ⟨[.stack .isJoined], [.csIsPending], [.stack .isJoined, .csIsPending], [.csIsPending]⟩

instance (ev : List SEv) : Decidable (silent ev) := inferInstanceAs (Decidable (txs (ofStack ev) = []))

/-- The packet was handled, and frames were sent only inside the callback for resynchronisation; not even there when `strict`. -/
def calm (strict : Bool) (x : Except UB (Sys × List (CsEv × List SEv))) : Bool :=
  match x with
  | .ok (_, ev) => ev.all fun y => silent y.2 || (!strict && y.1 = .resync)
  | .error _ => false

theorem calm_ok {b : Bool} {x : Except UB (Sys × List (CsEv × List SEv))} (h : calm b x = true) :
    ∃ s ev, x = .ok (s, ev) ∧ ∀ y ∈ ev, (b = true ∨ y.1 ≠ .resync) → silent y.2 := by
  obtain u | ⟨s, ev⟩ := x
  · cases h
  · refine ⟨s, ev, rfl, fun y hy hk => ?_⟩
    have := List.all_eq_true.mp h y hy
    simp only [Bool.or_eq_true, decide_eq_true_eq, Bool.and_eq_true, Bool.not_eq_true'] at this
    rcases this with k | k
    · exact k
    · rcases hk with hb | hn
      · rw [hb] at k; cases k.1
      · exact absurd k.2 hn

/-- C123, the hypotheses of `C123_kept_partial` are met. -/
example : ∃ s' ev s1, csHandleR Tests.xorEnv lookAround (heard [3, 1, 0]) .no 202 9 3 1722419302 = .ok (s', ev) ∧
    sysStep Tests.xorEnv (heard [3, 1, 0]) (.csHandle .no 202 [3, 1, 0] (((heard [3, 1, 0]).stack.frame.drop 9).drop 3) 1722419302) = .ok (.unit, s1, outer ev) := by
  obtain ⟨s', ev, hr, hq⟩ := calm_ok (b := true) (x := csHandleR Tests.xorEnv lookAround (heard [3, 1, 0]) .no 202 9 3 1722419302) (by decide +kernel)
  obtain ⟨s1, h1, -⟩ := C123_kept_partial heard_hist.1 (A := lookAround) (by unfold SyncFit; decide +kernel) .no 202 (base := 9) (data := [3, 1, 0]) (by decide)
    (by decide +kernel) hr (fun x hx => hq x hx (.inl rfl))
  exact ⟨s', ev, s1, hr, h1⟩

theorem heard_last : SHist Tests.xorEnv (SDemo.items heardOps ++ [SDemo.nextItem heardOps (heardOp [0, 3, 1])]) (heard [0, 3, 1]) :=
  (SDemo.next heardFine (by decide +kernel) (by decide +kernel)).1

/-- C123, the hypotheses of `C123_last` are met: the two commands the other way round, and the same application. A frame is sent inside, and the
version is answered. -/
example : ∃ s' ev s1, csHandleR Tests.xorEnv (askAt 1722419302) (heard [0, 3, 1]) .no 202 9 3 1722419302 = .ok (s', ev) ∧
    sysStep Tests.xorEnv (heard [0, 3, 1]) (.csHandle .no 202 [0, 3, 1] (((heard [0, 3, 1]).stack.frame.drop 9).drop 3) 1722419302) = .ok (.unit, s1, outer ev) := by
  obtain ⟨s', ev, hr, hq⟩ := calm_ok (b := false) (x := csHandleR Tests.xorEnv (askAt 1722419302) (heard [0, 3, 1]) .no 202 9 3 1722419302) (by decide +kernel)
  obtain ⟨s1, h1, -⟩ := C123_last heard_last (A := askAt 1722419302) (askAt_fit _) (base := 9) (msgs := [.version]) (k := 1) (data := [0, 3, 1]) rfl (by decide)
    (by decide) (by decide +kernel) hr (fun x hx hn => hq x hx (.inr hn))
  exact ⟨s', ev, s1, hr, h1⟩

example : leftOver (csHandleR Tests.xorEnv (askAt 1722419302) (heard [0, 3, 1]) .no 202 9 3 1722419302) = some (true, [0, 1, 1]) ∧
    calm true (csHandleR Tests.xorEnv (askAt 1722419302) (heard [0, 3, 1]) .no 202 9 3 1722419302) = false := by decide +kernel

/-- C123, the hypothesis of `C123_none` is met. -/
example : ((heard [3, 1, 0]).stack.frame.drop 9).take 3 = [3, 1, 0] := by decide +kernel

end Uwan
