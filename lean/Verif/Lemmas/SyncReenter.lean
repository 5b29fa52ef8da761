import Verif.Spec.SyncReenter
import Verif.Lemmas.SyncHist

/-! # Clock synchronisation packets with calls from inside the callbacks -/

namespace Uwan
open Spec

/-- The same but for `app_time_req_pending`. -/
def Cs.Same (c d : Cs) : Prop := c = { d with reqPending := c.reqPending }

theorem Cs.Same.rfl {c : Cs} : c.Same c := by cases c; exact Eq.refl _

/-- What holds while a packet is handled. -/
structure Handling (s : Sys) : Prop where
  inv : Inv s.stack
  len : s.cs.ans.length ≤ 9
  pending : s.cs.ansPending = false

theorem silent_app {a b : List SEv} : silent (a ++ b) ↔ silent a ∧ silent b := by
  unfold silent ofStack txs
  rw [List.filterMap_append, List.filterMap_append, List.append_eq_nil_iff]

/-- A call of the stack inside. -/
theorem step_in {E : Env} {s : St} (h : Inv s) {op : Op} (hv : op.Valid) (hin : (SOp.stack op).inCall = true) :
    ∃ r s' ev, step E s op = .ok (r, s', ev) ∧ Inv s' ∧ (txs ev = [] → s'.frame = s.frame) := by
  rcases step_ok E h hv with ⟨r, s', ev, h1, h2⟩ | ⟨h1, -⟩
  · refine ⟨r, s', ev, h1, h2, fun hq => ?_⟩
    by_cases hc : op.isCfg = true
    · exact (step_cfg hc h1).2.frame
    cases op with
    | init rg =>
      simp only [step, Except.ok.injEq, Prod.mk.injEq] at h1
      obtain ⟨-, rfl, -⟩ := h1
      rw [uwanInit_eq]
    | join r1 r2 =>
      obtain ⟨e, -, hcase⟩ := step_join h h1
      cases hcase with
      | state => rfl
      | channel => rfl
      | sent => exact absurd hq (by simp [txs, joinEv])
    | send port pld c rnd =>
      obtain ⟨e, -, hcase⟩ := step_send h h1
      cases hcase with
      | state => rfl
      | channel => rfl
      | len => rfl
      | sent => exact absurd hq (by simp [txs, sentEv])
    | timer id => cases hin
    | event m o => cases hin
    | _ => exact absurd rfl hc
  · cases op with
    | event m o => cases hin
    | _ => exact h1.elim

/-- One call inside. -/
theorem sysStep_in {E : Env} {s : Sys} (h : Handling s) {op : SOp} (hv : op.Valid) (hin : op.inCall = true) :
    ∃ r s' ev, sysStep E s op = .ok (r, s', ev) ∧ Handling s' ∧ s'.cs.Same s.cs ∧ (silent ev → s'.stack.frame = s.stack.frame) := by
  have hsend : ∀ (c : Cs) (pld : Bytes) (rnd : Nat), pld.length ≤ 255 → c.Same s.cs → ∃ r s' ev, csSend E ⟨s.stack, c⟩ pld rnd = .ok (r, s', ev) ∧
      Handling s' ∧ s'.cs.Same s.cs ∧ (silent ev → s'.stack.frame = s.stack.frame) := by
    intro c pld rnd hp hc
    obtain ⟨r, st, ev, h1, h2, h3⟩ := step_in (E := E) h.inv (op := .send 202 pld false rnd) hp rfl
    refine ⟨r, ⟨st, c⟩, .cs (.sendFrame 202 pld false) :: ev.map .st, ?_, ⟨h2, ?_, ?_⟩, hc, fun hq => h3 ?_⟩
    · unfold csSend
      simp only
      rw [h1]
      rfl
    · rw [show c.ans = s.cs.ans by rw [hc]]; exact h.len
    · rw [show c.ansPending = s.cs.ansPending by rw [hc]]; exact h.pending
    · have : ofStack (.cs (.sendFrame 202 pld false) :: ev.map .st) = ev := stackOf_st ev
      unfold silent at hq
      rwa [this] at hq
  cases op with
  | stack op =>
    obtain ⟨r, st, ev, h1, h2, h3⟩ := step_in (E := E) h.inv hv hin
    refine ⟨r, { s with stack := st }, ev.map .st, ?_, ⟨h2, h.len, h.pending⟩, .rfl, fun hq => h3 ?_⟩
    · show (step E s.stack op).bind _ = _
      rw [h1]; rfl
    · unfold silent at hq
      rwa [show ofStack (ev.map .st) = ev from stackOf_st ev] at hq
  | csInit cbs => cases hin
  | csHandle err port data tail unix => cases hin
  | csTimeReq ans unix rnd =>
    have h0 := csTimeReq_eq h.len ans unix
    by_cases hcb : s.cs.cbs.isSome = true
    · rw [if_pos hcb] at h0
      have := timeReqPld_length h.len ans unix
      obtain ⟨r, s', ev, h1, h2, h3, h4⟩ := hsend { s.cs with reqPending := true } (timeReqPld s.cs ans unix) rnd (by omega) (Eq.refl _)
      refine ⟨r, s', .cs .getTime :: ev, ?_, h2, h3, fun hq => h4 hq⟩
      show (csTimeReq s.cs ans unix).bind _ = _
      rw [h0]
      show (csSend E { s with cs := { s.cs with reqPending := true } } (timeReqPld s.cs ans unix) rnd).bind _ = _
      rw [h1]; rfl
    · rw [if_neg hcb] at h0
      refine ⟨.err .state, s, [], ?_, h, .rfl, fun _ => rfl⟩
      show (csTimeReq s.cs ans unix).bind _ = _
      rw [h0]; rfl
  | csIsPending => exact ⟨_, s, [], rfl, h, .rfl, fun _ => rfl⟩
  | csSendAnsw rnd =>
    refine ⟨.err .state, s, [], ?_, h, .rfl, fun _ => rfl⟩
    show (if s.cs.ansPending then _ else _) = _
    rw [h.pending]; rfl

theorem Cs.Same.trans {a b c : Cs} (h1 : a.Same b) (h2 : b.Same c) : a.Same c := by
  unfold Cs.Same at *
  rw [h1, h2]

theorem Cs.Same.symm {a b : Cs} (h : a.Same b) : b.Same a := by
  unfold Cs.Same at *
  rw [h]

/-- Calls inside. -/
theorem sysRun_in {E : Env} : ∀ (ops : List SOp) {s : Sys}, Handling s → (∀ op ∈ ops, op.Valid ∧ op.inCall = true) →
    ∃ s' ev, sysRun E s ops = .ok (s', ev) ∧ Handling s' ∧ s'.cs.Same s.cs ∧ (silent ev → s'.stack.frame = s.stack.frame)
  | [], s, h, _ => ⟨s, [], rfl, h, .rfl, fun _ => rfl⟩
  | op :: ops, s, h, hv => by
    obtain ⟨r, s1, ev, h1, h2, h3, h4⟩ := sysStep_in (E := E) h (hv op (by simp)).1 (hv op (by simp)).2
    obtain ⟨s2, ev', h5, h6, h7, h8⟩ := sysRun_in (E := E) ops h2 (fun o ho => hv o (by simp [ho]))
    refine ⟨s2, ev ++ ev', ?_, h6, h7.trans h3, fun hq => ?_⟩
    · show (sysStep E s op).bind _ = _
      rw [h1]
      show (sysRun E s1 ops).bind _ = _
      rw [h5]; rfl
    · rw [h8 (silent_app.mp hq).2, h4 (silent_app.mp hq).1]

theorem orOob_ok {α : Type} {l : List α} {i : Nat} (h : i < l.length) : ∃ a, l[i]? = some a ∧ orOob l[i]? = .ok a :=
  ⟨l[i], List.getElem?_eq_getElem h, by rw [List.getElem?_eq_getElem h]; rfl⟩

theorem csCmdR_junk {E : Env} {A : SyncInside} {cb : CsCbs} {base : Nat} {size : Byte} {unix : U32} {cmd : Byte} {off : Nat} {s : Sys} {out : Bytes}
    (h : 4 ≤ cmd.toNat) : csCmdR E A cb base size unix cmd off s out = .ok (off, s, out, []) := by
  have h0 : cmd ≠ 0 := by rintro rfl; exact absurd h (by decide)
  have h1 : cmd ≠ 1 := by rintro rfl; exact absurd h (by decide)
  have h2 : cmd ≠ 2 := by rintro rfl; exact absurd h (by decide)
  have h3 : cmd ≠ 3 := by rintro rfl; exact absurd h (by decide)
  unfold csCmdR
  rw [if_neg h0, if_neg h1, if_neg h2, if_neg h3]

/-- Where the next command begins. -/
def nextOff (size : Nat) (cmd : Byte) (off : Nat) : Nat :=
  if cmd = 1 then (if size < off + 5 then off else off + 5) else if cmd = 2 then (if size < off + 1 then off else off + 1)
  else if cmd = 3 then off + 1 else off

/-- What a command does, with calls inside: all bytes are read before the first of them, so it is the command that would be
found without them. -/
structure CmdRes (cb : CsCbs) (base : Nat) (size : Byte) (unix : U32) (cmd : Byte) (off : Nat) (s : Sys) (out : Bytes) (seen : List Nat)
    (s' : Sys) (out' : Bytes) (ev : List (CsEv × List SEv)) : Prop where
  handling : Handling s'
  need : out'.length + need (cmd.toNat :: seen) ≤ 9
  plain : ∀ c : Cs, s.cs.Same c → ∃ c', csCmd cb (s.stack.frame.drop base) size unix cmd off c out = .ok (nextOff size.toNat cmd off, c', out', ev.map Prod.fst) ∧
    s'.cs.Same c'
  frame : (∀ x ∈ ev, silent x.2) → s'.stack.frame = s.stack.frame
  only : ∀ x ∈ ev, x.1 = .resync → cmd = 3

theorem csCmdR_in {E : Env} {A : SyncInside} {cb : CsCbs} {base : Nat} {size : Byte} {unix : U32} {cmd : Byte} {off : Nat} {s : Sys} {out : Bytes}
    {seen : List Nat} (h : Handling s) (hA : SyncFit A) (hb : base + size.toNat < 255) (ho : off ≤ size.toNat) (hout : out.length + need seen ≤ 9)
    (hseen : seen.contains cmd.toNat = false) :
    csCmdR E A cb base size unix cmd off s out = .error .arith ∨
    ∃ s' out' ev, csCmdR E A cb base size unix cmd off s out = .ok (nextOff size.toNat cmd off, s', out', ev) ∧
      CmdRes cb base size unix cmd off s out seen s' out' ev := by
  have hlen : s.stack.frame.length = 255 := h.inv.frame
  have hr : ∀ i, i ≤ size.toNat → ∃ a, s.stack.frame[base + i]? = some a ∧ (s.stack.frame.drop base)[i]? = some a := by
    intro i hi
    obtain ⟨a, ha, -⟩ := orOob_ok (l := s.stack.frame) (i := base + i) (by omega)
    exact ⟨a, ha, by rw [List.getElem?_drop]; exact ha⟩
  have hnn := need_cons cmd.toNat seen
  by_cases h4 : 4 ≤ cmd.toNat
  · right
    have hno : nextOff size.toNat cmd off = off := by
      unfold nextOff
      rw [if_neg (by rintro rfl; exact absurd h4 (by decide)), if_neg (by rintro rfl; exact absurd h4 (by decide)),
        if_neg (by rintro rfl; exact absurd h4 (by decide))]
    refine ⟨s, out, [], by rw [csCmdR_junk h4, hno], ⟨h, by omega, fun c hc => ⟨c, ?_, hc⟩, fun _ => rfl, by simp⟩⟩
    rw [csCmd_junk h4, hno]; rfl
  have key : cmd = 0 ∨ cmd = 1 ∨ cmd = 2 ∨ cmd = 3 := by
    have e : ∀ k : Nat, cmd.toNat = k → cmd = BitVec.ofNat 8 k := fun k hk => by rw [← hk, BitVec.ofNat_toNat, BitVec.setWidth_eq]
    rcases (by omega : cmd.toNat = 0 ∨ cmd.toNat = 1 ∨ cmd.toNat = 2 ∨ cmd.toNat = 3) with h | h | h | h
    · exact .inl (e 0 h)
    · exact .inr (.inl (e 1 h))
    · exact .inr (.inr (.inl (e 2 h)))
    · exact .inr (.inr (.inr (e 3 h)))
  rcases key with rfl | rfl | rfl | rfl
  · right
    have h0 : seen.contains 0 = false := hseen
    have hn : need seen = 3 + need ((0 : Byte).toNat :: seen) := by
      show _ = 3 + need (0 :: seen)
      simp only [need, List.contains_cons, h0]; simp
    have hp : csPush out [0, 1, 1] = .ok (out ++ [0, 1, 1]) := by
      unfold csPush; rw [if_pos (by simp; omega)]
    refine ⟨s, out ++ [0, 1, 1], [], ?_, ⟨h, by simp only [List.length_append, List.length_cons, List.length_nil]; omega, fun c hc => ⟨c, ?_, hc⟩, fun _ => rfl, by simp⟩⟩
    · unfold csCmdR
      rw [if_pos rfl, hp]; rfl
    · unfold csCmd
      rw [if_pos rfl, hp]; rfl
  · right
    by_cases h5 : size.toNat < off + 5
    · have hno : nextOff size.toNat 1 off = off := by unfold nextOff; rw [if_pos rfl, if_pos h5]
      refine ⟨s, out, [], ?_, ⟨h, by omega, fun c hc => ⟨c, ?_, hc⟩, fun _ => rfl, by simp⟩⟩
      · unfold csCmdR
        rw [if_neg (by decide), if_pos rfl, if_pos h5, hno]
      · unfold csCmd
        rw [if_neg (by decide), if_pos rfl, if_pos h5, hno]; rfl
    have hno : nextOff size.toNat 1 off = off + 5 := by unfold nextOff; rw [if_pos rfl, if_neg h5]
    obtain ⟨a, a1, a2⟩ := hr off ho
    obtain ⟨b, b1, b2⟩ := hr (off + 1) (by omega)
    obtain ⟨d, d1, d2⟩ := hr (off + 2) (by omega)
    obtain ⟨e, e1, e2⟩ := hr (off + 3) (by omega)
    obtain ⟨t, t1, t2⟩ := hr (off + 4) (by omega)
    by_cases ht : t &&& 0xf = s.cs.token
    · obtain ⟨s1, ev, r1, r2, r3, r4⟩ := sysRun_in (E := E) A.correction h (fun o hm => hA o (by simp [hm]))
      refine ⟨{ s1 with cs := { s1.cs with token := (s1.cs.token + 1) &&& 0xf } }, out,
        (if 128 ≤ e.toNat then [(CsEv.ubShift, [])] else []) ++ [(.correction (or32 a b d e), ev)], ?_,
        ⟨⟨r2.inv, r2.len, r2.pending⟩, by omega, fun c hc => ?_, fun hq => r4 (hq (.correction (or32 a b d e), ev) (by simp)), ?_⟩⟩
      · unfold csCmdR
        rw [if_neg (by decide), if_pos rfl, if_neg h5, a1, b1, d1, e1, t1, hno]
        show (if t &&& 0xf = s.cs.token then _ else _) = _
        rw [if_pos ht, r1]; rfl
      · have htok : c.token = s.cs.token := by rw [show s.cs = { c with reqPending := s.cs.reqPending } from hc]
        refine ⟨{ c with token := (c.token + 1) &&& 0xf }, ?_, ?_⟩
        · unfold csCmd
          rw [if_neg (by decide), if_pos rfl, if_neg h5, a2, b2, d2, e2, t2, hno]
          show (if t &&& 0xf = c.token then _ else _) = _
          rw [if_pos (by rw [htok]; exact ht)]
          by_cases h128 : 128 ≤ e.toNat
          · simp [h128]
          · simp [h128]
        · have := r3.trans hc
          show ({ s1.cs with token := (s1.cs.token + 1) &&& 0xf } : Cs) = _
          rw [show s1.cs = { c with reqPending := s1.cs.reqPending } from this]
      · intro x hx hx'
        rcases List.mem_append.mp hx with hx | hx
        · split at hx
          · rw [List.mem_singleton.mp hx] at hx'; cases hx'
          · cases hx
        · rw [List.mem_singleton.mp hx] at hx'; cases hx'
    · refine ⟨s, out, if 128 ≤ e.toNat then [(CsEv.ubShift, [])] else [], ?_, ⟨h, by omega, fun c hc => ⟨c, ?_, hc⟩, fun _ => rfl, ?_⟩⟩
      · unfold csCmdR
        rw [if_neg (by decide), if_pos rfl, if_neg h5, a1, b1, d1, e1, t1, hno]
        show (if t &&& 0xf = s.cs.token then _ else _) = _
        rw [if_neg ht]
      · have htok : c.token = s.cs.token := by rw [show s.cs = { c with reqPending := s.cs.reqPending } from hc]
        unfold csCmd
        rw [if_neg (by decide), if_pos rfl, if_neg h5, a2, b2, d2, e2, t2, hno]
        show (if t &&& 0xf = c.token then _ else _) = _
        rw [if_neg (by rw [htok]; exact ht)]
        by_cases h128 : 128 ≤ e.toNat
        · simp [h128]
        · simp [h128]
      · intro x hx hx'
        split at hx
        · rw [List.mem_singleton.mp hx] at hx'; cases hx'
        · cases hx
  · by_cases h1 : size.toNat < off + 1
    · right
      have hno : nextOff size.toNat 2 off = off := by unfold nextOff; rw [if_neg (by decide), if_pos rfl, if_pos h1]
      refine ⟨s, out, [], ?_, ⟨h, by omega, fun c hc => ⟨c, ?_, hc⟩, fun _ => rfl, by simp⟩⟩
      · unfold csCmdR
        rw [if_neg (by decide), if_neg (by decide), if_pos rfl, if_pos h1, hno]
      · unfold csCmd
        rw [if_neg (by decide), if_neg (by decide), if_pos rfl, if_pos h1, hno]; rfl
    have hno : nextOff size.toNat 2 off = off + 1 := by unfold nextOff; rw [if_neg (by decide), if_pos rfl, if_neg h1]
    obtain ⟨p, p1, p2⟩ := hr off ho
    have h2 : seen.contains 2 = false := hseen
    have hn : need seen = 6 + need ((2 : Byte).toNat :: seen) := by
      show _ = 6 + need (2 :: seen)
      simp only [need, List.contains_cons, h2]; cases seen.contains 0 <;> rfl
    have hp : ∀ st : Byte, csPush out ([0x2, st] ++ gpsBytes unix) = .ok (out ++ ([0x2, st] ++ gpsBytes unix)) := by
      intro st; unfold csPush; rw [if_pos (by simp [gpsBytes]; omega)]
    have hper : csPeriodR E A cb p s = .error .arith ∨ ∃ st s1 ev, csPeriodR E A cb p s = .ok (st, s1, ev) ∧ Handling s1 ∧ s1.cs.Same s.cs ∧
        csPeriod cb p = .ok (st, ev.map Prod.fst) ∧ ((∀ x ∈ ev, silent x.2) → s1.stack.frame = s.stack.frame) ∧ ∀ x ∈ ev, x.1 ≠ .resync := by
      unfold csPeriodR csPeriod
      by_cases hcb : cb.period = true
      · rw [if_pos hcb, if_pos hcb]
        by_cases h6 : 6 ≤ p.toNat
        · left; rw [periodOf_big h6]; rfl
        · right
          obtain ⟨s1, ev, r1, r2, r3, r4⟩ := sysRun_in (E := E) A.period h (fun o hm => hA o (by simp [hm]))
          rw [periodOf_small (by omega)]
          refine ⟨0, s1, [(.period _, ev)], ?_, r2, r3, rfl, fun hq => r4 (hq _ (List.mem_singleton.mpr rfl)), by simp⟩
          show (sysRun E s A.period).bind _ = _
          rw [r1]; rfl
      · rw [if_neg hcb, if_neg hcb]
        exact .inr ⟨1, s, [], rfl, h, .rfl, rfl, fun _ => rfl, by simp⟩
    rcases hper with hper | ⟨st, s1, ev, q1, q2, q3, q4, q5, q6⟩
    · left
      unfold csCmdR
      rw [if_neg (by decide), if_neg (by decide), if_pos rfl, if_neg h1, p1]
      show (csPeriodR E A cb p s).bind _ = _
      rw [hper]; rfl
    · right
      obtain ⟨s2, evt, r1, r2, r3, r4⟩ := sysRun_in (E := E) A.time q2 (fun o hm => hA o (by simp [hm]))
      refine ⟨s2, out ++ ([0x2, st] ++ gpsBytes unix), ev ++ [(.getTime, evt)], ?_, ⟨r2, by simp only [gpsBytes, List.length_append, List.length_cons, List.length_nil]; omega, fun c hc => ⟨c, ?_, (r3.trans q3).trans hc⟩,
        fun hq => ?_, ?_⟩⟩
      · unfold csCmdR
        rw [if_neg (by decide), if_neg (by decide), if_pos rfl, if_neg h1, p1, hno]
        show (csPeriodR E A cb p s).bind _ = _
        rw [q1]
        show (sysRun E s1 A.time).bind _ = _
        rw [r1]
        show (csPush out ([0x2, st] ++ gpsBytes unix)).bind _ = _
        rw [hp]; rfl
      · unfold csCmd
        rw [if_neg (by decide), if_neg (by decide), if_pos rfl, if_neg h1, p2, hno]
        show (csPeriod cb p).bind _ = _
        rw [q4]
        show (csPush out ([0x2, st] ++ gpsBytes unix)).bind _ = _
        rw [hp]; simp [Except.bind]
      · rw [r4 (hq (.getTime, evt) (by simp)), q5 (fun x hx => hq x (by simp [hx]))]
      · intro x hx hx'
        rcases List.mem_append.mp hx with hx | hx
        · exact (q6 x hx hx').elim
        · rw [List.mem_singleton.mp hx] at hx'; cases hx'
  · right
    obtain ⟨b, b1, b2⟩ := hr off ho
    have hno : nextOff size.toNat 3 off = off + 1 := by unfold nextOff; rw [if_neg (by decide), if_neg (by decide), if_pos rfl]
    have hmod : (off + 1) % 256 = off + 1 := Nat.mod_eq_of_lt (by omega)
    have hpl : ∀ c : Cs, csCmd cb (s.stack.frame.drop base) size unix 3 off c out =
        .ok (off + 1, { c with nbRep := b &&& 0x7 }, out, if b &&& 0x7 ≠ 0 then [.resync] else []) := by
      intro c
      unfold csCmd
      rw [if_neg (by decide), if_neg (by decide), if_neg (by decide), if_pos rfl, b2, hmod]; rfl
    by_cases hz : b &&& 0x7 ≠ 0
    · obtain ⟨s1, ev, r1, r2, r3, r4⟩ := sysRun_in (E := E) (s := { s with cs := { s.cs with nbRep := b &&& 0x7 } }) A.resync ⟨h.inv, h.len, h.pending⟩
        (fun o hm => hA o (by simp [hm]))
      refine ⟨s1, out, [(.resync, ev)], ?_, ⟨r2, by omega, fun c hc => ⟨{ c with nbRep := b &&& 0x7 }, ?_, r3.trans ?_⟩, fun hq => r4 (hq _ (List.mem_singleton.mpr rfl)),
        fun _ _ _ => rfl⟩⟩
      · unfold csCmdR
        rw [if_neg (by decide), if_neg (by decide), if_neg (by decide), if_pos rfl, b1, hmod, hno]
        show (if b &&& 0x7 ≠ 0 then _ else _) = _
        rw [if_pos hz, r1]; rfl
      · rw [hpl, if_pos hz, hno]; rfl
      · show ({ s.cs with nbRep := b &&& 0x7 } : Cs) = _
        rw [show s.cs = { c with reqPending := s.cs.reqPending } from hc]
    · refine ⟨{ s with cs := { s.cs with nbRep := b &&& 0x7 } }, out, [], ?_, ⟨⟨h.inv, h.len, h.pending⟩, by omega,
        fun c hc => ⟨{ c with nbRep := b &&& 0x7 }, ?_, ?_⟩, fun _ => rfl, by simp⟩⟩
      · unfold csCmdR
        rw [if_neg (by decide), if_neg (by decide), if_neg (by decide), if_pos rfl, b1, hmod, hno]
        show (if b &&& 0x7 ≠ 0 then _ else _) = _
        rw [if_neg hz]
      · rw [hpl, if_neg hz, hno]; rfl
      · show ({ s.cs with nbRep := b &&& 0x7 } : Cs) = _
        rw [show s.cs = { c with reqPending := s.cs.reqPending } from hc]

theorem nextOff_le (size : Nat) (cmd : Byte) (off : Nat) (h : off ≤ size) : off ≤ nextOff size cmd off ∧ nextOff size cmd off ≤ size + 1 := by
  unfold nextOff
  split
  · split <;> omega
  · split
    · split <;> omega
    · split <;> omega

theorem csLoopR_cons {E : Env} {A : SyncInside} {cb : CsCbs} {base : Nat} {size : Byte} {unix : U32} {n off : Nat} {mask cmd : Byte} {s : Sys} {out : Bytes}
    (hlt : off < size.toNat) (c1 : s.stack.frame[base + off]? = some cmd) (h31 : ¬ 31 ≤ cmd.toNat) (hnm : ¬ (mask &&& BitVec.ofNat 8 (2 ^ cmd.toNat) ≠ 0)) :
    csLoopR E A cb base size unix (n + 1) off mask s out = (csCmdR E A cb base size unix cmd (off + 1) s out).bind fun x =>
      (csLoopR E A cb base size unix n x.1 (mask ||| BitVec.ofNat 8 (2 ^ cmd.toNat)) x.2.1 x.2.2.1).bind fun y => .ok (y.1, y.2.1, x.2.2.2 ++ y.2.2) := by
  conv => lhs; unfold csLoopR
  rw [if_pos hlt, c1]
  show (if 31 ≤ cmd.toNat then _ else _) = _
  rw [if_neg h31]
  exact if_neg hnm

theorem csLoop_cons {cb : CsCbs} {mem : Bytes} {size : Byte} {unix : U32} {n off : Nat} {mask cmd : Byte} {c : Cs} {out : Bytes}
    (hlt : off < size.toNat) (c2 : mem[off]? = some cmd) (h31 : ¬ 31 ≤ cmd.toNat) (hnm : ¬ (mask &&& BitVec.ofNat 8 (2 ^ cmd.toNat) ≠ 0)) :
    csLoop cb mem size unix (n + 1) off mask c out = (csCmd cb mem size unix cmd (off + 1) c out).bind fun x =>
      (csLoop cb mem size unix n x.1 (mask ||| BitVec.ofNat 8 (2 ^ cmd.toNat)) x.2.1 x.2.2.1).bind fun y => .ok (y.1, y.2.1, x.2.2.2 ++ y.2.2) := by
  conv => lhs; unfold csLoop
  rw [if_pos hlt, c2]
  show (if 31 ≤ cmd.toNat then _ else _) = _
  rw [if_neg h31]
  exact if_neg hnm

theorem csLoopR_hit {E : Env} {A : SyncInside} {cb : CsCbs} {base : Nat} {size : Byte} {unix : U32} {n off : Nat} {mask cmd : Byte} {s : Sys} {out : Bytes}
    (hlt : off < size.toNat) (c1 : s.stack.frame[base + off]? = some cmd) (h31 : ¬ 31 ≤ cmd.toNat) (hm : mask &&& BitVec.ofNat 8 (2 ^ cmd.toNat) ≠ 0) :
    csLoopR E A cb base size unix (n + 1) off mask s out = .ok (s, out, []) := by
  unfold csLoopR
  rw [if_pos hlt, c1]
  show (if 31 ≤ cmd.toNat then _ else _) = _
  rw [if_neg h31]
  exact if_pos hm

theorem csLoop_hit {cb : CsCbs} {mem : Bytes} {size : Byte} {unix : U32} {n off : Nat} {mask cmd : Byte} {c : Cs} {out : Bytes}
    (hlt : off < size.toNat) (c2 : mem[off]? = some cmd) (h31 : ¬ 31 ≤ cmd.toNat) (hm : mask &&& BitVec.ofNat 8 (2 ^ cmd.toNat) ≠ 0) :
    csLoop cb mem size unix (n + 1) off mask c out = .ok (c, out, []) := by
  unfold csLoop
  rw [if_pos hlt, c2]
  show (if 31 ≤ cmd.toNat then _ else _) = _
  rw [if_neg h31]
  exact if_pos hm

theorem csLoopR_end {E : Env} {A : SyncInside} {cb : CsCbs} {base : Nat} {size : Byte} {unix : U32} {n off : Nat} {mask : Byte} {s : Sys} {out : Bytes}
    (h : size.toNat ≤ off) : csLoopR E A cb base size unix n off mask s out = .ok (s, out, []) := by
  unfold csLoopR
  cases n <;> simp only [if_neg (Nat.not_lt.mpr h)]

theorem csLoop_end {cb : CsCbs} {mem : Bytes} {size : Byte} {unix : U32} {n off : Nat} {mask : Byte} {c : Cs} {out : Bytes}
    (h : size.toNat ≤ off) : csLoop cb mem size unix n off mask c out = .ok (c, out, []) := by
  unfold csLoop
  cases n <;> simp only [if_neg (Nat.not_lt.mpr h)]

/-- A whole packet. -/
theorem csLoopR_in {E : Env} {A : SyncInside} {cb : CsCbs} {base : Nat} {size : Byte} {unix : U32} (hA : SyncFit A) (hb : base + size.toNat < 255) :
    ∀ (n off : Nat) (mask : Byte) (seen : List Nat) (s : Sys) (out : Bytes), Handling s → Masks mask seen → out.length + need seen ≤ 9 →
      size.toNat - off ≤ n →
      csLoopR E A cb base size unix n off mask s out = .error .arith ∨
      ∃ s' out' ev, csLoopR E A cb base size unix n off mask s out = .ok (s', out', ev) ∧ Handling s' ∧ out'.length ≤ 9 ∧
        ((∀ x ∈ ev, silent x.2) → s'.stack.frame = s.stack.frame ∧ ∀ c : Cs, s.cs.Same c →
          ∃ c', csLoop cb (s.stack.frame.drop base) size unix n off mask c out = .ok (c', out', ev.map Prod.fst) ∧ s'.cs.Same c') := by
  intro n
  induction n with
  | zero =>
    intro off mask seen s out h hm hout hn
    exact .inr ⟨s, out, [], csLoopR_end (by omega), h, by omega, fun _ => ⟨rfl, fun c hc => ⟨c, csLoop_end (by omega), hc⟩⟩⟩
  | succ n ih =>
    intro off mask seen s out h hm hout hn
    by_cases hlt : off < size.toNat
    case neg =>
      exact .inr ⟨s, out, [], csLoopR_end (by omega), h, by omega, fun _ => ⟨rfl, fun c hc => ⟨c, csLoop_end (by omega), hc⟩⟩⟩
    obtain ⟨cmd, c1, -⟩ := orOob_ok (l := s.stack.frame) (i := base + off) (by rw [h.inv.frame]; omega)
    have c2 : (s.stack.frame.drop base)[off]? = some cmd := by rw [List.getElem?_drop]; exact c1
    by_cases h31 : 31 ≤ cmd.toNat
    · left
      unfold csLoopR
      rw [if_pos hlt, c1]
      show (if 31 ≤ cmd.toNat then _ else _) = _
      rw [if_pos h31]
    by_cases hs : seen.contains cmd.toNat = true
    · right
      have hhit := (mask_hit hm cmd.toNat).mpr hs
      exact ⟨s, out, [], csLoopR_hit hlt c1 h31 hhit, h, by omega, fun _ => ⟨rfl, fun c hc => ⟨c, csLoop_hit hlt c2 h31 hhit, hc⟩⟩⟩
    have hnm : ¬ (mask &&& BitVec.ofNat 8 (2 ^ cmd.toNat) ≠ 0) := fun h => hs ((mask_hit hm _).mp h)
    have hR := csLoopR_cons (E := E) (A := A) (cb := cb) (unix := unix) (n := n) (mask := mask) (out := out) hlt c1 h31 hnm
    have hP := fun c => csLoop_cons (cb := cb) (unix := unix) (n := n) (mask := mask) (out := out) (c := c) hlt c2 h31 hnm
    rcases csCmdR_in (E := E) (A := A) (cb := cb) (unix := unix) h hA hb (show off + 1 ≤ size.toNat by omega) hout (by simpa using hs) with he | ⟨s1, out1, ev1, hc, hres⟩
    · left; rw [hR, he]; rfl
    have hno := nextOff_le size.toNat cmd (off + 1) (by omega)
    have hm' := mask_set hm cmd.toNat
    have hneed : out1.length + need (if cmd.toNat < 8 then cmd.toNat :: seen else seen) ≤ 9 := by
      have h1 := hres.need
      split
      · exact h1
      · rename_i h8
        have : need (cmd.toNat :: seen) = need seen := by
          simp only [need, List.contains_cons, show (0 == cmd.toNat) = false from by simp; omega, show (2 == cmd.toNat) = false from by simp; omega, Bool.false_or]
        omega
    rcases ih (nextOff size.toNat cmd (off + 1)) _ _ s1 out1 hres.handling hm' hneed (by omega) with he | ⟨s2, out2, ev2, hl, hh, ho, hq⟩
    · left
      rw [hR, hc]
      show (csLoopR E A cb base size unix n _ _ s1 out1).bind _ = _
      rw [he]; rfl
    · right
      refine ⟨s2, out2, ev1 ++ ev2, ?_, hh, ho, fun hsil => ?_⟩
      · rw [hR, hc]
        show (csLoopR E A cb base size unix n _ _ s1 out1).bind _ = _
        rw [hl]; rfl
      · have hf := hres.frame (fun x hx => hsil x (by simp [hx]))
        obtain ⟨g1, g2⟩ := hq (fun x hx => hsil x (by simp [hx]))
        refine ⟨g1.trans hf, fun c hcs => ?_⟩
        obtain ⟨c', k1, k2⟩ := hres.plain c hcs
        obtain ⟨c'', k3, k4⟩ := g2 c' k2
        refine ⟨c'', ?_, k4⟩
        rw [hP, k1]
        show (csLoop cb _ size unix n _ _ c' out1).bind _ = _
        rw [← hf, k3]
        simp [Except.bind]

theorem drop_mem {l : Bytes} {i k : Nat} {x y z : Bytes} (h : l.drop i = x ++ y ++ z) (hk : k < x.length) : l[i + k]? = x[k]? := by
  rw [← List.getElem?_drop, h, List.append_assoc, List.getElem?_append_left hk]

/-- A packet of complete commands that ends in a ForceDeviceResyncReq, whose callback may send. -/
theorem csLoopR_last {E : Env} {A : SyncInside} {cb : CsCbs} {base : Nat} {size : Byte} {unix : U32} (hA : SyncFit A) (hb : base + size.toNat < 255)
    {k : Byte} {tail : Bytes} : ∀ (msgs : List SyncMsg), (∀ m ∈ msgs, m.cid ≠ 3) → ∀ (n off : Nat) (mask : Byte) (seen : List Nat) (s : Sys) (out : Bytes) (c : Cs),
      Handling s → Masks mask seen → out.length + need seen ≤ 9 → s.cs.Same c → size.toNat - off ≤ n →
      s.stack.frame.drop (base + off) = msgs.flatMap SyncMsg.bytes ++ [3, k] ++ tail → size.toNat = off + (msgs.flatMap SyncMsg.bytes ++ [3, k]).length →
      ∀ (s' : Sys) (out' : Bytes) (ev : List (CsEv × List SEv)), csLoopR E A cb base size unix n off mask s out = .ok (s', out', ev) →
        (∀ x ∈ ev, x.1 ≠ .resync → silent x.2) →
        ∃ c', csLoop cb (s.stack.frame.drop base) size unix n off mask c out = .ok (c', out', ev.map Prod.fst) ∧ s'.cs.Same c'
  | [], _, 0, off, mask, seen, s, out, c, h, hm, hout, hc, hn, hd, hsz, s', out', ev, hr, hq => by
    simp at hsz; omega
  | [], _, n + 1, off, mask, seen, s, out, c, h, hm, hout, hc, hn, hd, hsz, s', out', ev, hr, hq => by
    have hd' : s.stack.frame.drop (base + off) = [3, k] ++ [] ++ tail := by simpa using hd
    have hsz' : size.toNat = off + 2 := hsz
    have c1 : s.stack.frame[base + off]? = some 3 := drop_mem hd' (k := 0) (by simp)
    have c2 : (s.stack.frame.drop base)[off]? = some 3 := by rw [List.getElem?_drop]; exact c1
    by_cases hs : seen.contains 3 = true
    · have hhit := (mask_hit hm 3).mpr hs
      rw [csLoopR_hit (cmd := 3) (by omega) c1 (by decide) hhit] at hr
      simp only [Except.ok.injEq, Prod.mk.injEq] at hr
      obtain ⟨rfl, rfl, rfl⟩ := hr
      exact ⟨c, csLoop_hit (cmd := 3) (by omega) c2 (by decide) hhit, hc⟩
    have hnm : ¬ (mask &&& BitVec.ofNat 8 (2 ^ 3) ≠ 0) := fun h => hs ((mask_hit hm 3).mp h)
    rw [csLoopR_cons (cmd := 3) (by omega) c1 (by decide) hnm] at hr
    have hno : nextOff size.toNat 3 (off + 1) = size.toNat := by
      rw [hsz']; rfl
    rcases csCmdR_in (E := E) (A := A) (cb := cb) (unix := unix) (cmd := 3) h hA hb (show off + 1 ≤ size.toNat by omega) hout (by simpa using hs) with he | ⟨s1, out1, ev1, hcm, hres⟩
    · rw [he] at hr; cases hr
    rw [hcm] at hr
    replace hr : (csLoopR E A cb base size unix n (nextOff size.toNat 3 (off + 1)) _ s1 out1).bind _ = _ := hr
    rw [csLoopR_end (by omega)] at hr
    simp only [Except.bind, Except.ok.injEq, Prod.mk.injEq, List.append_nil] at hr
    obtain ⟨rfl, rfl, rfl⟩ := hr
    obtain ⟨c', k1, k2⟩ := hres.plain c hc
    refine ⟨c', ?_, k2⟩
    rw [csLoop_cons (cmd := 3) (by omega) c2 (by decide) hnm, k1]
    show (csLoop cb _ size unix n (nextOff size.toNat 3 (off + 1)) _ c' out1).bind _ = _
    rw [csLoop_end (by omega)]
    simp [Except.bind]
  | m :: msgs, hms, 0, off, mask, seen, s, out, c, h, hm, hout, hc, hn, hd, hsz, s', out', ev, hr, hq => by
    simp at hsz; omega
  | m :: msgs, hms, n + 1, off, mask, seen, s, out, c, h, hm, hout, hc, hn, hd, hsz, s', out', ev, hr, hq => by
    have hcid := hms m (by simp)
    have hd' : s.stack.frame.drop (base + off) = m.bytes ++ (msgs.flatMap SyncMsg.bytes ++ [3, k]) ++ tail := by
      rw [hd]; simp
    have hsz' : size.toNat = off + m.bytes.length + (msgs.flatMap SyncMsg.bytes ++ [3, k]).length := by
      rw [hsz, List.flatMap_cons, List.append_assoc, List.length_append]; omega
    have hpos : (msgs.flatMap SyncMsg.bytes ++ [3, k]).length ≥ 2 := by simp
    have hb0 : 0 < m.bytes.length ∧ m.bytes[0]? = some m.cid ∧ ¬ 31 ≤ m.cid.toNat ∧ m.cid.toNat < 8 := by
      cases m <;> exact ⟨Nat.succ_pos _, rfl, by simp [SyncMsg.cid], by simp [SyncMsg.cid]⟩
    obtain ⟨hb0, hb1, h31, h8⟩ := hb0
    have c1 : s.stack.frame[base + off]? = some m.cid := (drop_mem hd' (k := 0) hb0).trans hb1
    have c2 : (s.stack.frame.drop base)[off]? = some m.cid := by rw [List.getElem?_drop]; exact c1
    have hno : nextOff size.toNat m.cid (off + 1) = off + m.bytes.length := by
      cases m with
      | version => rfl
      | timeAns a b d e t =>
        show (if size.toNat < off + 1 + 5 then _ else _) = off + 6
        rw [if_neg (by simp only [SyncMsg.bytes, List.length_cons, List.length_nil] at hsz'; omega)]
      | period p =>
        show (if size.toNat < off + 1 + 1 then _ else _) = off + 2
        rw [if_neg (by simp only [SyncMsg.bytes, List.length_cons, List.length_nil] at hsz'; omega)]
      | resync b => exact absurd rfl hcid
    by_cases hs : seen.contains m.cid.toNat = true
    · have hhit := (mask_hit hm m.cid.toNat).mpr hs
      rw [csLoopR_hit (by omega) c1 h31 hhit] at hr
      simp only [Except.ok.injEq, Prod.mk.injEq] at hr
      obtain ⟨rfl, rfl, rfl⟩ := hr
      exact ⟨c, csLoop_hit (by omega) c2 h31 hhit, hc⟩
    have hnm : ¬ (mask &&& BitVec.ofNat 8 (2 ^ m.cid.toNat) ≠ 0) := fun h => hs ((mask_hit hm _).mp h)
    rw [csLoopR_cons (by omega) c1 h31 hnm] at hr
    rcases csCmdR_in (E := E) (A := A) (cb := cb) (unix := unix) (cmd := m.cid) h hA hb (show off + 1 ≤ size.toNat by omega) hout (by simpa using hs) with he | ⟨s1, out1, ev1, hcm, hres⟩
    · rw [he] at hr; cases hr
    rw [hcm, hno] at hr
    replace hr : (csLoopR E A cb base size unix n (off + m.bytes.length) _ s1 out1).bind _ = _ := hr
    have hm' := mask_set hm m.cid.toNat
    rw [if_pos h8] at hm'
    obtain ⟨⟨s2, out2, ev2⟩, hl, hr⟩ := bind_ok hr
    simp only [Except.ok.injEq, Prod.mk.injEq] at hr
    obtain ⟨rfl, rfl, rfl⟩ := hr
    have hf := hres.frame (fun x hx => hq x (by simp [hx]) fun hx' => hcid (hres.only x hx hx'))
    obtain ⟨c', k1, k2⟩ := hres.plain c hc
    have hdn : s1.stack.frame.drop (base + (off + m.bytes.length)) = msgs.flatMap SyncMsg.bytes ++ [3, k] ++ tail := by
      rw [hf, show base + (off + m.bytes.length) = (base + off) + m.bytes.length by omega, ← List.drop_drop, hd', List.append_assoc, List.drop_left]
    obtain ⟨c'', k3, k4⟩ := csLoopR_last hA hb msgs (fun x hx => hms x (by simp [hx])) n (off + m.bytes.length) _ _ s1 out1 c' hres.handling hm' hres.need k2 (by omega)
      hdn hsz' _ _ _ hl (fun x hx => hq x (by simp [hx]))
    refine ⟨c'', ?_, k4⟩
    rw [csLoop_cons (by omega) c2 h31 hnm, k1, hno]
    show (csLoop cb _ size unix n _ _ c' out1).bind _ = _
    rw [← hf, k3]
    simp [Except.bind]

/-! ### Where the packet is -/

theorem blit_drop {dst src d : Bytes} {off : Nat} (h : orOob (blit dst off src) = .ok d) :
    off + src.length ≤ dst.length ∧ (d.drop off).take src.length = src := by
  unfold blit at h
  split at h
  · rename_i hle
    simp only [orOob, Except.ok.injEq] at h
    subst h
    refine ⟨hle, ?_⟩
    rw [List.append_assoc, List.drop_append_of_le_length (by simp; omega), List.drop_eq_nil_of_le (by rw [List.length_take]; exact Nat.min_le_left ..), List.nil_append, List.take_left]
  · cases h

theorem dataTail_length {pkt p : DlPkt} {n : Nat} {l y : Bytes} (h : dataTail pkt n l = .ok (p, some y)) : y.length + 1 ≤ n := by
  unfold dataTail at h
  split at h
  · split at h
    · simp only [Except.ok.injEq, Prod.mk.injEq, Option.some.injEq] at h
      rw [← h.2]; simp; omega
    · cases h
  · simp at h

theorem dataFinish_frame {E : Env} {s s' : St} {pkt p' : DlPkt} {pld : Option Bytes} {buf : Bytes} {off : Nat} {ev : List Ev} {x : Bytes}
    (h : dataFinish E s pkt pld buf off = .ok (.no, s', p', ev)) (hx : p'.data = some x) (hne : x ≠ []) :
    ∃ y, pld = some y ∧ x.length = y.length ∧ off + x.length ≤ s.frame.length ∧ (s'.frame.drop off).take x.length = x := by
  unfold dataFinish at h
  simp only at h
  split at h
  · simp at h
  · split at h
    · rename_i b l
      obtain ⟨fr, hb, h⟩ := bind_ok h
      simp only [Except.ok.injEq, Prod.mk.injEq] at h
      obtain ⟨-, rfl, rfl, -⟩ := h
      simp only [Option.some.injEq] at hx
      subst hx
      obtain ⟨h1, h2⟩ := blit_drop hb
      exact ⟨b :: l, rfl, encryptPayload_length .., h1, h2⟩
    · rename_i hno
      simp only [Except.ok.injEq, Prod.mk.injEq] at h
      obtain ⟨-, rfl, rfl, -⟩ := h
      simp only at hx
      cases x with
      | nil => exact (hne rfl).elim
      | cons b l => exact (hno b l hx).elim

theorem handleDataMsg_frame {E : Env} {bat : Nat → Byte} {s s' : St} {pkt p' : DlPkt} {buf : Bytes} {ev : List Ev} {x : Bytes} (hp : pkt.data = some buf)
    (hl : buf.length ≤ 255) (h : handleDataMsg E bat s pkt = .ok (.no, s', p', ev)) (hx : p'.data = some x) (hne : x ≠ []) :
    ∃ base, base ≤ 24 ∧ base + x.length + 4 ≤ 255 ∧ (s'.frame.drop base).take x.length = x := by
  unfold handleDataMsg at h
  rw [hp] at h
  simp only at h
  split at h
  · simp at h
  split at h
  rotate_left
  · cases h
  split at h
  · simp at h
  split at h
  · simp at h
  split at h
  · simp at h
  split at h
  · simp at h
  split at h
  · simp at h
  obtain ⟨⟨e1, s1, p1, ev1⟩, hb, h⟩ := bind_ok h
  simp only [Except.ok.injEq, Prod.mk.injEq] at h
  obtain ⟨rfl, rfl, rfl, -⟩ := h
  unfold dataBody at hb
  obtain ⟨⟨s2, ev2⟩, -, hb⟩ := bind_ok hb
  obtain ⟨⟨p2, pld⟩, ht, hb⟩ := bind_ok hb
  obtain ⟨⟨e3, s3, p3, ev3⟩, hf, hb⟩ := bind_ok hb
  simp only [Except.ok.injEq, Prod.mk.injEq] at hb
  obtain ⟨rfl, rfl, rfl, -⟩ := hb
  obtain ⟨y, hy, hlen, -, hfr⟩ := dataFinish_frame hf hx hne
  subst hy
  have hy := dataTail_length ht
  refine ⟨_, ?_, ?_, hfr⟩
  · have : ∀ b : Byte, (b &&& 0xf).toNat ≤ 15 := fun b => by
      rw [BitVec.toNat_and]; exact Nat.and_le_right
    exact Nat.add_le_add_right (Nat.add_le_add_left (this _) 8) 1
  · omega

theorem joinFinish_port {E : Env} {s s' : St} {pkt p' : DlPkt} {buf : Bytes} {c : Bool} {e : Err} {ev : List Ev}
    (h : joinFinish E s pkt buf c = .ok (e, s', p', ev)) : p'.fPort = pkt.fPort := by
  unfold joinFinish at h
  simp only at h
  split at h
  · simp only [Except.ok.injEq, Prod.mk.injEq] at h
    rw [h.2.2.1]
  · obtain ⟨x, -, h⟩ := bind_ok h
    simp only [Except.ok.injEq, Prod.mk.injEq] at h
    rw [h.2.2.1]

theorem handleJoinMsg_port {E : Env} {s s' : St} {pkt p' : DlPkt} {e : Err} {ev : List Ev} (h : handleJoinMsg E s pkt = .ok (e, s', p', ev)) :
    p'.fPort = pkt.fPort := by
  unfold handleJoinMsg at h
  split at h
  · cases h
  split at h
  · simp only [Except.ok.injEq, Prod.mk.injEq] at h
    rw [h.2.2.1]
  split at h
  · cases h
  split at h
  · simp only [Except.ok.injEq, Prod.mk.injEq] at h
    rw [h.2.2.1]
  obtain ⟨x, -, h⟩ := bind_ok h
  obtain ⟨fr, -, h⟩ := bind_ok h
  obtain ⟨⟨e1, s1, p1, ev1⟩, hj, h⟩ := bind_ok h
  simp only [Except.ok.injEq, Prod.mk.injEq] at h
  rw [← h.2.2.1]
  have := joinFinish_port hj
  exact this

theorem handleDownlink_frame {E : Env} {o : Oracle} {s s' : St} {err : Err} {pre : List Ev} {mt : Byte} {pkt : DlPkt} {x : Bytes}
    (h : handleDownlink E o s err = .ok (s', pre ++ [.downlink .no mt pkt])) (hp : pkt.fPort = 202) (hx : pkt.data = some x) (hne : x ≠ []) :
    ∃ base, base ≤ 24 ∧ base + x.length + 4 ≤ 255 ∧ (s'.frame.drop base).take x.length = x := by
  unfold handleDownlink at h
  split at h
  · obtain ⟨fr, -, h⟩ := bind_ok h
    obtain ⟨b, -, h⟩ := bind_ok h
    have fin : ∀ {e1 : Err} {s1 : St} {p1 : DlPkt} {ev1 : List Ev} {m1 : Byte}, [Ev.readPacket, .sleep] ++ ev1 ++ [.downlink e1 m1 p1] = pre ++ [.downlink .no mt pkt] →
        e1 = .no ∧ p1 = pkt := by
      intro e1 _ p1 ev1 m1 hev
      have hl := (List.append_inj_right' hev rfl)
      simp only [List.cons.injEq, Ev.downlink.injEq, and_true] at hl
      exact ⟨hl.1, hl.2.2⟩
    simp only at h
    split at h
    · obtain ⟨⟨e1, s1, p1, ev1⟩, hm, h⟩ := bind_ok h
      simp only [Except.ok.injEq, Prod.mk.injEq] at h
      obtain ⟨rfl, rfl⟩ := fin (s1 := s1) h.2
      rw [handleJoinMsg_port hm] at hp
      simp at hp
    · obtain ⟨⟨e1, s1, p1, ev1⟩, hm, h⟩ := bind_ok h
      simp only [Except.ok.injEq, Prod.mk.injEq] at h
      obtain ⟨rfl, rfl⟩ := fin (s1 := s1) h.2
      obtain ⟨rfl, -⟩ := h
      have := handleDataMsg_frame rfl (List.length_take_le ..) hm hx hne
      exact this
  · rename_i he
    simp only [Except.ok.injEq, Prod.mk.injEq] at h
    have hl := (List.append_inj_right' (s₁ := [Ev.sleep]) (s₂ := pre) (t₁ := [.downlink err 0 ⟨none, 0, 0, 0⟩]) h.2 rfl)
    simp only [List.cons.injEq, Ev.downlink.injEq, and_true] at hl
    exact (he hl.1).elim

end Uwan
