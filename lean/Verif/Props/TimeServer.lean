import Verif.Lemmas.TimeServer

/-!
# Setting the clock over the air (C114)
-/

namespace Uwan
open Spec

variable {E : Env} {log : List SItem}

/-- C114: a device asks for the time in `q`, its clock showing `unix`. A network server in step with it, which hears the frame and nothing else,
gets an unconfirmed message on port 202, and the time server behind it, its own clock showing `now`, has an answer. When the answer is heard as a
downlink of the session in `a` and passed on by the application in `c`, the application is called with one correction, and a clock set by
it shows `now` (as GPS time) at the moment of the request; the correction is the plain difference if that fits a signed 32-bit number. In between nothing
else set the clock, and neither session nor package were started anew. -/
theorem C114_time {q : SItem} {s : Sys} {ans : Bool} {unix : U32} {rnd : Nat} (h : SHist E (log ++ [q]) s)
    (hq : q.op = .csTimeReq ans unix rnd) (hr : q.ret = .err .no) {l : Bytes} (hl : l ∈ txs (ofStack q.ev)) (n : Server)
    (hn : let v := view E (stackLog log); n.nwk = v.nwk ∧ n.app = v.app ∧ n.addr = v.addr ∧ n.next ≤ v.up ∧ v.up < n.next + 65536)
    (now : Nat) (hnow : now < 2 ^ 32) :
    ∃ m n' reply, n.recv E l = some (m, n') ∧ m.confirmed = false ∧ m.port = some 202 ∧ timeAnswer now m.payload = some reply ∧
      ∀ (mid : List SItem) (a : SItem) (late : List SItem) (c : SItem) (s' : Sys) (x : Item) (D : Downlink) (cnt : Nat),
        SHist E (log ++ [q] ++ mid ++ [a] ++ late ++ [c]) s' → stackCalls a = [x] →
        (∀ y ∈ stackLog mid, newSession y = false) → (config E (stackLog (log ++ [q] ++ mid))).joining = false →
        (∀ y ∈ mid ++ [a] ++ late, (∀ k, y.op ≠ .csInit k) ∧ corrections (callsOf y.ev) = []) →
        D.body = some (202, reply) → D.fOpts.length ≤ 15 → inStep (config E (stackLog (log ++ [q] ++ mid))).down cnt →
        outcome (stackLog (log ++ [q] ++ mid)) x = .packet (D.build E n'.nwk n'.app n'.addr cnt) → passedOn a c →
        ∃ v, corrections (callsOf c.ev) = [v] ∧ gpsTime (adjust unix.toNat v) = now ∧
          (-2 ^ 31 ≤ (now : Int) - gpsTime unix.toNat → (now : Int) - gpsTime unix.toNat < 2 ^ 31 → v = now - gpsTime unix.toNat) := by
  obtain ⟨s0, h0, hpre, hpost, hv, hs⟩ := h.last
  rw [hq] at hs
  have hc63 := C63_time_request h0 ans unix rnd
  by_cases hcb : (syncView log).cbs = none
  · rw [if_pos hcb] at hc63
    rw [hc63] at hs
    simp only [Except.ok.injEq, Prod.mk.injEq] at hs
    rw [hr] at hs
    exact absurd hs.1 (by decide)
  rw [if_neg hcb] at hc63
  simp only at hc63
  obtain ⟨hp, hu, hll, hheld⟩ := held_answers log
  rw [hheld] at hc63
  have hk : (syncView log).count % 16 < 16 := Nat.mod_lt _ (by decide)
  have hgt : gpsTime unix.toNat < 4294967296 := by unfold gpsTime; omega
  have hta := timeAnswer_request (now := now) ans hgt hk hp hu hll
  generalize hpl : answers hp hu hll ++ [1] ++ leBytes 4 (gpsTime unix.toNat) ++
    [BitVec.ofNat 8 ((syncView log).count % 16 + if ans then 16 else 0)] = pld at hc63 hta
  obtain ⟨r, s1, ev, hst, hsy⟩ := hc63
  rw [hsy] at hs
  simp only [Except.ok.injEq, Prod.mk.injEq] at hs
  obtain ⟨e1, e2, e3⟩ := hs
  have hcalls : stackCalls q = [⟨q.pre.stack, .send 202 pld false rnd, q.ret, ofStack q.ev, q.post.stack⟩] := by
    unfold stackCalls
    rw [hq, ← e3]
    simp only [handedOver, List.filterMap_cons]
    have := handedOver_st ev
    unfold handedOver at this
    rw [this]
    rfl
  have hist1 := stackLog_hist h
  rw [stackLog_append, stackLog_one, hcalls] at hist1
  generalize hit : (⟨q.pre.stack, .send 202 pld false rnd, q.ret, ofStack q.ev, q.post.stack⟩ : Item) = it at hist1 hcalls
  have hne : pld ≠ [] := by rw [← hpl]; simp
  have hup : uplinkOf E (stackLog log) it = some ⟨false, (config E (stackLog log)).queue, some 202, pld⟩ := by
    rw [← hit]
    unfold uplinkOf
    simp only [hr, if_true, if_neg hne]
    rfl
  obtain ⟨n1, n2, n3, n4, n5⟩ := hn
  have hrecv := recv_uplink (gap := (view E (stackLog log)).up - n.next) hist1 hup (by rw [← hit]; exact hl) n1 n2 n3 (by omega) (by omega)
    (by rw [← hit]; intro p c r hc; cases hc)
  refine ⟨_, _, _, hrecv, rfl, rfl, hta, ?_⟩
  intro mid a late c s' x D cnt hh hx hmid hj hkeep hD hfo hin hout hpass
  simp only at hout
  obtain ⟨e, mt, p, tail, u, hres, hcop⟩ := hpass
  obtain ⟨s5, h5, -, -, hv5, hs5⟩ := hh.last
  obtain ⟨s4, h4⟩ := h5.cut
  have hist4 := stackLog_hist h4
  rw [stackLog_append _ [a], stackLog_one, hx] at hist4
  have hxa : ofStack a.ev = x.ev := by
    unfold stackCalls at hx
    split at hx
    · injection hx with hx; rw [← hx]
    · cases hho : handedOver a.ev with
      | nil => rw [hho] at hx; cases hx
      | cons y ys => rw [hho] at hx; injection hx with hx; rw [← hx]
    · cases hho : handedOver a.ev with
      | nil => rw [hho] at hx; cases hx
      | cons y ys => rw [hho] at hx; injection hx with hx; rw [← hx]
    · cases hx
  have hkeepv := view_keep (E := E) (stackLog log) (it :: stackLog mid) (by
    intro y hy
    rcases List.mem_cons.mp hy with rfl | hy
    · rw [← hit]
      show joinReported (ofStack q.ev) = false
      cases hjr : joinReported (ofStack q.ev) with
      | false => rfl
      | true =>
        obtain ⟨e, m, p, hm⟩ := joinReported_mem hjr
        have hev : ofStack q.ev = ev := by rw [← e3]; exact ofStack_st ev
        rw [hev] at hm
        exact absurd hm (no_report (stackLog_hist h0).inv hst (by intro m o; exact nofun) e m p)
    · exact hmid y hy)
  have hlog4 : stackLog (log ++ [q] ++ mid) = stackLog log ++ it :: stackLog mid := by
    rw [stackLog_append, stackLog_append, stackLog_one, hcalls]; simp
  rw [hlog4] at hist4 hout hj hin
  obtain ⟨k1, k2, k3⟩ := hkeepv
  rw [n1, n2, n3, ← k1, ← k2, ← k3] at hout
  obtain ⟨m, o, mt', -, hres', -, -⟩ := C28_genuine hist4 D cnt hout hj hfo hin
  rw [hxa, hres', List.mem_singleton] at hres
  simp only [Prod.mk.injEq] at hres
  obtain ⟨rfl, -, rfl⟩ := hres
  unfold Downlink.shown at hcop
  rw [hD] at hcop
  simp only [Option.getD_some] at hcop
  rw [hcop] at hs5
  have hsv : (syncView (log ++ [q] ++ mid ++ [a] ++ late)).count = (syncView log).count ∧
      (syncView (log ++ [q] ++ mid ++ [a] ++ late)).cbs = (syncView log).cbs := by
    have e : log ++ [q] ++ mid ++ [a] ++ late = log ++ (q :: (mid ++ [a] ++ late)) := by simp
    rw [e]
    unfold syncView
    rw [List.foldl_append, List.foldl_cons]
    obtain ⟨a1, a2⟩ := sync_keep (mid ++ [a] ++ late) (SyncView.next (log.foldl SyncView.next ⟨none, 0, []⟩) q) hkeep
    rw [a1, a2]
    unfold SyncView.next
    rw [hq]
    exact ⟨rfl, rfl⟩
  have hz : (now + 4294967296 - gpsTime unix.toNat) % 4294967296 < 256 ^ 4 := Nat.mod_lt _ (by decide)
  generalize hzz : (now + 4294967296 - gpsTime unix.toNat) % 4294967296 = z at hs5 hz
  have hacc := C64_accepted (a := BitVec.ofNat 8 z) (b := BitVec.ofNat 8 (z / 256)) (c := BitVec.ofNat 8 (z / 256 / 256))
    (d := BitVec.ofNat 8 (z / 256 / 256 / 256)) (rest := []) (tail := tail) (unix := u) h5 (by simp) (by rw [hsv.2]; exact hcb)
    (t := BitVec.ofNat 8 ((syncView log).count % 16)) (by rw [hsv.1, BitVec.toNat_ofNat]; omega) hs5
  refine ⟨_, hacc.1, ?_⟩
  have e' : leNat (leBytes 4 z) = z := by rw [leNat_leBytes, Nat.mod_eq_of_lt hz]
  replace e' : leNat [BitVec.ofNat 8 z, BitVec.ofNat 8 (z / 256), BitVec.ofNat 8 (z / 256 / 256), BitVec.ofNat 8 (z / 256 / 256 / 256)] = z := e'
  rw [e']
  have hub := unix.isLt
  unfold gpsTime at hgt hzz ⊢
  unfold adjust signed32
  constructor
  · split <;> omega
  · intro g1 g2
    split <;> omega

/-! A device two seconds behind asks for the time, with an answer to another request waiting. -/

/-- Up to the request. -/
def lateOps : List SOp := csOps ++ [.csTimeReq true 1722419302 0]
/-- The frame sent. -/
def lateFrame : Bytes := ((SDemo.items lateOps).flatMap fun x => txs (ofStack x.ev)).getLast?.getD []
/-- The server. -/
def lateServer : Server := ⟨Tests.appKey, Tests.appKey, 0x01020304, 0⟩
/-- The answer, at GPS time 1406454522. -/
def lateReply : Bytes := ((lateServer.recv Tests.xorEnv lateFrame).bind fun x => timeAnswer 1406454522 x.1.payload).getD []
/-- The answer is heard and passed on. -/
def lateRest : List SOp :=
  [.stack (.event 4 (Tests.rxOf [])), .stack (.timer .rx1),
   .stack (.event 2 (Tests.rxOf ((⟨false, 0, 0, [], some (202, lateReply)⟩ : Downlink).build Tests.xorEnv Tests.appKey Tests.appKey 0x01020304 7))),
   .csHandle .no 202 lateReply [] 1722419304]

/-- No operation. -/
def noItem : SItem := ⟨⟨.boot, .boot⟩, .csIsPending, .unit, [], ⟨.boot, .boot⟩⟩
/-- One of the operations. -/
def lateItem (k : Nat) : SItem := ((SDemo.items (lateOps ++ lateRest))[k]?).getD noItem

theorem late_op (hf : SDemo.fine (lateOps ++ lateRest) = true) {k : Nat} {op : SOp} (h : (lateOps ++ lateRest)[k]? = some op) : (lateItem k).op = op := by
  rw [← SDemo.items_ops hf, List.getElem?_map] at h
  unfold lateItem
  generalize (SDemo.items (lateOps ++ lateRest))[k]? = y at h
  cases y with
  | none => cases h
  | some y => simpa using h

theorem head_one {α : Type} {l : List α} (d : α) (h : l.length = 1) : l = [l.headD d] := by
  match l, h with
  | [_], _ => rfl

theorem passed_of {a c : SItem} {l : Bytes} {unix : U32} (hc : c.op = .csHandle .no 202 l [] unix)
    (h : ∃ r ∈ results (ofStack a.ev), r.1 = .no ∧ r.2.2.fPort = 202 ∧ r.2.2.data = some l) : passedOn a c := by
  obtain ⟨⟨e, mt, p⟩, hm, h1, h2, h3⟩ := h
  refine ⟨e, mt, p, [], unix, hm, ?_⟩
  simp only at h1 h2 h3
  rw [hc, h1, h2, h3]
  rfl

theorem nine {L : List SItem} (d : SItem) (h : L.length = 9) :
    L = L.take 4 ++ [(L[4]?).getD d] ++ (L.drop 5).take 2 ++ [(L[7]?).getD d] ++ [] ++ [(L[8]?).getD d] := by
  rcases L with _ | ⟨a0, _ | ⟨a1, _ | ⟨a2, _ | ⟨a3, _ | ⟨a4, _ | ⟨a5, _ | ⟨a6, _ | ⟨a7, _ | ⟨a8, _ | ⟨a9, L⟩⟩⟩⟩⟩⟩⟩⟩⟩⟩ <;>
    simp only [List.length_cons, List.length_nil] at h
  all_goals first | omega | rfl

example : ∃ (log mid late : List SItem) (q a c : SItem) (s' : Sys) (l : Bytes) (x : Item),
    SHist Tests.xorEnv (log ++ [q] ++ mid ++ [a] ++ late ++ [c]) s' ∧ q.op = .csTimeReq true 1722419302 0 ∧ q.ret = .err .no ∧
    l ∈ txs (ofStack q.ev) ∧ (let v := view Tests.xorEnv (stackLog log)
      lateServer.nwk = v.nwk ∧ lateServer.app = v.app ∧ lateServer.addr = v.addr ∧ lateServer.next ≤ v.up ∧ v.up < lateServer.next + 65536) ∧
    (lateServer.recv Tests.xorEnv l).bind (fun y => timeAnswer 1406454522 y.1.payload) = some lateReply ∧ stackCalls a = [x] ∧
    (∀ y ∈ stackLog mid, newSession y = false) ∧ (config Tests.xorEnv (stackLog (log ++ [q] ++ mid))).joining = false ∧
    (∀ y ∈ mid ++ [a] ++ late, (∀ k, y.op ≠ .csInit k) ∧ corrections (callsOf y.ev) = []) ∧
    inStep (config Tests.xorEnv (stackLog (log ++ [q] ++ mid))).down 7 ∧
    outcome (stackLog (log ++ [q] ++ mid)) x = .packet
      ((⟨false, 0, 0, [], some (202, lateReply)⟩ : Downlink).build Tests.xorEnv lateServer.nwk lateServer.app lateServer.addr 7) ∧ passedOn a c ∧
    corrections (callsOf c.ev) = [2] ∧ gpsTime 1722419304 = 1406454522 := by
  have hf : SDemo.fine (lateOps ++ lateRest) = true := by decide +kernel
  have h := SDemo.hist hf
  rw [nine (L := SDemo.items (lateOps ++ lateRest)) noItem (by decide +kernel)] at h
  have hq : (lateItem 4).op = .csTimeReq true 1722419302 0 := late_op hf rfl
  have hc : (lateItem 8).op = .csHandle .no 202 lateReply [] 1722419304 := late_op hf rfl
  refine ⟨_, _, _, _, _, _, _, lateFrame, _, h, hq, by decide +kernel,
    by decide +kernel, by decide +kernel, by decide +kernel, head_one ⟨.boot, .isJoined, .unit, [], .boot⟩ (by decide +kernel),
    by decide +kernel, by decide +kernel, ?_, by unfold inStep; decide +kernel, by decide +kernel, passed_of hc (by decide +kernel),
    by decide +kernel, by decide +kernel⟩
  have : ∀ y ∈ ((SDemo.items (lateOps ++ lateRest)).drop 5).take 2 ++ [lateItem 7] ++ [],
      (match y.op with | .csInit _ => false | _ => true) = true ∧ corrections (callsOf y.ev) = [] := by decide +kernel
  intro y hy
  obtain ⟨h1, h2⟩ := this y hy
  exact ⟨fun k hk => by rw [hk] at h1; simp at h1, h2⟩

end Uwan
