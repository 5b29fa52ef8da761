import Verif.Spec.Otaa
import Verif.Props.Network

/-!
# An attacker on the air while a device joins (C139)

Full claim: a device becomes joined only if the network has answered its join-request. What holds is that the network has made the
join-accept; it may have done so for another join-request.
-/

namespace Uwan
open Spec

variable {E : Env} {log : List Item} {it : Item} {s' : St}

/-- What a packet that is accepted and not forged must be. -/
theorem unforged_accept {dec : Block → Block → Block} (hdec : ∀ k b, dec k (E.aes k b) = b) {key : Block} {sent : List JoinAccept} {l : Bytes}
    (hv : joinVerdict E key l = .no) (hu : JoinUnforged E key sent l) : ∃ J ∈ sent, l = J.build E dec key := by
  unfold joinVerdict at hv
  split at hv
  · exact nomatch hv
  rename_i hlen
  split at hv
  · exact nomatch hv
  rename_i hhd
  have hhd : l.head? = some 0x20 := Decidable.of_not_not hhd
  simp only at hv
  split at hv
  · rename_i hm
    obtain ⟨b, t, rfl⟩ : ∃ b t, l = b :: t := by
      cases l with
      | nil => simp at hhd
      | cons b t => exact ⟨b, t, rfl⟩
    simp only [List.head?_cons, Option.some.injEq] at hhd
    subst hhd
    have hc : joinClear E key (0x20 :: t) =
        (E.aes key (blockOf (t.take 16))).toList ++ (if t.length ≤ 16 then [] else (E.aes key (blockOf ((t.drop 16).take 16))).toList) := by
      unfold joinClear
      simp only [List.drop_succ_cons, List.drop_zero, List.length_cons, Nat.add_le_add_iff_right, show (17 : Nat) = 16 + 1 from rfl]
    generalize hcc : joinClear E key (0x20 :: t) = c at *
    have hcl : c.length = t.length := by
      rw [hc]
      simp only [List.length_cons] at hlen
      split <;> simp <;> omega
    have hu' := hu (0x20 :: c.take (c.length - 4)) (by
      rw [hcc, ← hm]
      simp)
    simp only [List.length_cons] at hlen
    generalize hmsg : (0x20 : Byte) :: c.take (c.length - 4) = msg at *
    cases hu' with
    | request _ hl h0 =>
      rw [← hmsg] at h0
      simp at h0
    | accept J hJ =>
      refine ⟨J, hJ, ?_⟩
      have hbody : J.body = c.take (c.length - 4) := by
        injection hmsg with _ h
        exact h.symm
      have hclear : J.body ++ (E.cmac key (0x20 :: J.body)).toList.take 4 = c := by
        rw [← hm, hbody, List.take_append_drop]
      unfold JoinAccept.build
      simp only
      rw [hclear, hcl]
      have h16 : (t.take 16).length = 16 := by rw [List.length_take]; omega
      have e1 : c.take 16 = (E.aes key (blockOf (t.take 16))).toList := by rw [hc]; simp
      rw [e1, blockOf_of_toList, hdec, blockOf_toList h16]
      split
      · rename_i hle
        rw [List.append_nil, List.take_of_length_le hle]
      · rename_i hle
        have e2 : c.drop 16 = (E.aes key (blockOf ((t.drop 16).take 16))).toList := by
          rw [hc, if_neg hle]; simp
        have h16' : ((t.drop 16).take 16).length = 16 := by rw [List.length_take, List.length_drop]; omega
        rw [e2, blockOf_of_toList, hdec, blockOf_toList h16']
        have : (t.drop 16).take 16 = t.drop 16 := List.take_of_length_le (by rw [List.length_drop]; omega)
        rw [this, List.take_append_drop]
  · exact nomatch hv

theorem xor_back (k b : Block) : Tests.xorEnv.aes k (Tests.xorEnv.aes k b) = b := by
  show Vector.zipWith _ (Vector.zipWith _ b k) k = b
  ext i hi
  simp [BitVec.xor_assoc]

namespace Demo

/-- The packet of the demonstration's join-accept. -/
def acceptPkt : Bytes := demoAccept.build Tests.xorEnv Tests.xorEnv.aes Tests.appKey

/-- A join with DevNonce `n` that is waiting in its first window. -/
def joinOps (n : Nat) : List Op := [.join 1 n, .event 4 (Tests.rxOf []), .timer .rx1]

/-- An uplink nobody answers. -/
def unheardOps (l : Bytes) : List Op :=
  [.send 2 l false 0, .event 4 (Tests.rxOf []), .timer .rx1, .event 1 (Tests.rxOf []), .timer .rx2, .event 1 (Tests.rxOf [])]

def otaaOps : List Op := [.init .eu868, .setOtaaKeys Tests.devEui Tests.appEui Tests.appKey]

/-- Joined with DevNonce 0x2345, then joining again with DevNonce 0x6789. -/
def rejoinOps : List Op := otaaOps ++ joinOps 0x2345 ++ [.event 2 (Tests.rxOf acceptPkt)] ++ joinOps 0x6789

/-- Joined with DevNonce 0x2345 twice, the second time with the join-accept of the first. -/
def reuseOps : List Op :=
  otaaOps ++ joinOps 0x2345 ++ [.event 2 (Tests.rxOf acceptPkt)] ++ unheardOps [1, 2, 3] ++ joinOps 0x2345 ++
    [.event 2 (Tests.rxOf acceptPkt)] ++ unheardOps [9, 8, 7]

end Demo

/-- A genuine join-accept is not forged. -/
theorem build_unforged {dec : Block → Block → Block} (hdec : ∀ k b, E.aes k (dec k b) = b) {key : Block} {sent : List JoinAccept} {J : JoinAccept}
    (hJ : J ∈ sent) (hf : J.Fits) : JoinUnforged E key sent (J.build E dec key) := by
  intro msg he
  obtain ⟨hc, -⟩ := joinClear_build hdec J key hf.2.2.2
  rw [hc, show (J.build E dec key).take 1 = [0x20] from rfl, ← List.append_assoc] at he
  have := (List.append_inj' he (by simp)).1
  rw [← this]
  exact .accept J hJ

/-- **C139**, what holds: whatever packets reach the device, when the application is told that it has joined, the packet was a join-accept the
network has made for the device's AppKey, and the device is in the session which that join-accept and its own last DevNonce make. Missing: that
the join-accept answers the device's last join-request, see `C139_replay`. -/
theorem C139_genuine_partial (h : Hist E (log ++ [it]) s') (dec : Block → Block → Block) (hdec : ∀ k b, E.aes k (dec k b) = b)
    (hdec' : ∀ k b, dec k (E.aes k b) = b) (sent : List JoinAccept) (hs : ∀ J ∈ sent, J.Fits)
    (hu : ∀ l, outcome log it = .packet l → JoinUnforged E (view E log).appKey sent l) (hr : joinReported it.ev = true) :
    ∃ J ∈ sent, outcome log it = .packet (J.build E dec (view E log).appKey) ∧ s'.session.isJoined = true ∧
      s'.session.devAddr = BitVec.ofNat 32 J.devAddr ∧
      s'.session.nwkSKey = sessionKey E (view E log).appKey 1 J.appNonce J.netId (view E log).nonce ∧
      s'.session.appSKey = sessionKey E (view E log).appKey 2 J.appNonce J.netId (view E log).nonce := by
  have hres : results it.ev ≠ [] := by
    obtain ⟨e, m, p, hm⟩ := joinReported_mem hr
    intro h0
    have : (e, m, p) ∈ results it.ev := List.mem_filterMap.2 ⟨_, hm, rfl⟩
    rw [h0] at this
    simp at this
  have hrep : ∀ e m p, results it.ev = [(e, m, p)] → e = .no := by
    intro e m p he
    unfold joinReported at hr
    obtain ⟨x, hx, hf⟩ := List.any_eq_true.mp hr
    cases x <;> simp at hf
    rename_i e' m' p'
    have : (e', m', p') ∈ results it.ev := List.mem_filterMap.2 ⟨_, hx, rfl⟩
    rw [he, List.mem_singleton] at this
    injection this with h1 _
    rw [← h1]
    revert hf
    cases e' <;> simp
  have hend := h.end_of
  cases ho : outcome log it with
  | none => rw [ho] at hend; exact absurd hend hres
  | timeout => rw [ho] at hend; exact absurd (hrep _ _ _ hend.1) (by decide)
  | crc => rw [ho] at hend; exact absurd (hrep _ _ _ hend.1) (by decide)
  | packet l =>
    rw [ho] at hend
    obtain ⟨m, o, e, hop, -⟩ := hend
    have hj : (config E log).joining = true := by
      rw [joinReported_iff h hop, Bool.and_eq_true] at hr
      exact hr.1
    have hv : joinVerdict E (view E log).appKey l = .no := by
      obtain ⟨s, mask, o, mt, p, G, -⟩ := h.gotJoin ho hj
      exact hrep _ _ _ G.results
    obtain ⟨J, hJ, rfl⟩ := unforged_accept hdec' hv (hu l ho)
    obtain ⟨f1, f2, f3, f4⟩ := hs J hJ
    obtain ⟨-, hss, -⟩ := C39_session h dec hdec J f1 f2 f3 f4 hj ho
    rw [hss]
    exact ⟨J, hJ, rfl, rfl, rfl, rfl, rfl⟩

/-- Non-trivial case of `C139_genuine_partial`: the network's join-accept arrives in the first window. -/
example : ∃ (log : List Item) (it : Item) (s' : St) (dec : Block → Block → Block) (sent : List JoinAccept),
    Hist Tests.xorEnv (log ++ [it]) s' ∧ (∀ k b, Tests.xorEnv.aes k (dec k b) = b) ∧ (∀ k b, dec k (Tests.xorEnv.aes k b) = b) ∧
    (∀ J ∈ sent, J.Fits) ∧ (∀ l, outcome log it = .packet l → JoinUnforged Tests.xorEnv (view Tests.xorEnv log).appKey sent l) ∧
    joinReported it.ev = true := by
  have h := Demo.next (ops := Demo.otaaOps ++ Demo.joinOps 0x2345) (op := .event 2 (Tests.rxOf Demo.acceptPkt))
    (by decide +kernel) trivial (by decide +kernel)
  have hf : demoAccept.Fits := by unfold JoinAccept.Fits; decide
  refine ⟨_, _, _, Tests.xorEnv.aes, [demoAccept], h.1, xor_back, xor_back, by simp [hf], ?_, by decide +kernel⟩
  intro l hl
  have hk : (view Tests.xorEnv (Demo.items (Demo.otaaOps ++ Demo.joinOps 0x2345))).appKey = Tests.appKey := by decide +kernel
  have ho : outcome (Demo.items (Demo.otaaOps ++ Demo.joinOps 0x2345)) (Demo.nextItem (Demo.otaaOps ++ Demo.joinOps 0x2345) (.event 2 (Tests.rxOf Demo.acceptPkt))) = .packet Demo.acceptPkt := by
    unfold outcome
    rw [h.2]
    decide +kernel
  rw [hk]
  obtain rfl : Demo.acceptPkt = l := by injection ho.symm.trans hl
  exact build_unforged xor_back (by simp) hf

theorem nonce_lt (log : List Item) : (view E log).nonce < 65536 := by
  refine snoc_induction (P := fun l => (view E l).nonce < 65536) (show (0 : Nat) < 65536 by decide) ?_ log
  intro l x ih
  rw [view_snoc, View.next]
  have hn : nonceSent x.ev < 65536 := by
    refine Nat.lt_of_lt_of_le (leNat_lt _) ?_
    refine Nat.le_trans (Nat.pow_le_pow_right (by decide) (List.length_take_le 2 _)) (by decide)
  split
  · exact ih
  · exact ih
  · exact ih
  · split
    · exact hn
    · exact ih
  · split <;> exact ih
  · split <;> exact ih
  · exact ih

/-- Different nonces make different session keys. -/
theorem sessionKey_nonce {dec : Block → Block → Block} (hdec : ∀ k b, dec k (E.aes k b) = b) {key : Block} {t a b n m : Nat} (hn : n < 65536)
    (hm : m < 65536) (h : sessionKey E key t a b n = sessionKey E key t a b m) : n = m := by
  unfold sessionKey at h
  have h1 := congrArg (dec key) h
  rw [hdec, hdec] at h1
  have h2 := congrArg Vector.toList h1
  rw [blockOf_toList (by simp [leBytes_length]), blockOf_toList (by simp [leBytes_length])] at h2
  simp only [List.append_assoc] at h2
  have h3 := (List.append_inj (List.append_inj (List.append_inj (List.append_inj h2 rfl).2 (by simp [leBytes_length])).2 (by simp [leBytes_length])).2
    (by simp [leBytes_length])).1
  exact leBytes_inj (n := 2) (by simpa using hn) (by simpa using hm) h3

/-- **C139** does not hold of the code: a join-accept the network has made for an earlier join-request `req` (with another DevNonce), repeated by
anybody, is accepted. The device says it has joined, with the address the network gave it then, and neither of its keys is the network's. -/
theorem C139_replay (h : Hist E (log ++ [it]) s') (dec : Block → Block → Block) (hdec : ∀ k b, E.aes k (dec k b) = b)
    (hdec' : ∀ k b, dec k (E.aes k b) = b) (J : JoinAccept) (hf : J.Fits) (hj : (config E log).joining = true)
    (ho : outcome log it = .packet (J.build E dec (view E log).appKey)) (req : Bytes) (n : Server)
    (hreq : joinServer E (view E log).appKey J req = some n) (hne : leNat ((req.drop 17).take 2) ≠ (view E log).nonce) :
    JoinUnforged E (view E log).appKey [J] (J.build E dec (view E log).appKey) ∧ joinReported it.ev = true ∧ s'.session.isJoined = true ∧
      s'.session.devAddr.toNat = n.addr ∧ s'.session.nwkSKey ≠ n.nwk ∧ s'.session.appSKey ≠ n.app := by
  obtain ⟨f1, f2, f3, f4⟩ := hf
  obtain ⟨hr, hss, -⟩ := C39_session h dec hdec J f1 f2 f3 f4 hj ho
  have hb := nonce_lt (E := E) log
  have ha : leNat ((req.drop 17).take 2) < 65536 :=
    Nat.lt_of_lt_of_le (leNat_lt _) (Nat.le_trans (Nat.pow_le_pow_right (by decide) (List.length_take_le 2 _)) (by decide))
  unfold joinServer at hreq
  split at hreq
  · simp only [Option.some.injEq] at hreq
    subst hreq
    refine ⟨build_unforged hdec (by simp) ⟨f1, f2, f3, f4⟩, ?_, ?_, ?_, ?_, ?_⟩
    · obtain ⟨s, mask, o, mt, p, G, -⟩ := h.gotJoin ho hj
      rw [joinReported_iff h G.op, hj, report_results, G.results, joinVerdict_build hdec J _ f4]
      rfl
    · rw [hss]
    · rw [hss]; exact Nat.mod_eq_of_lt f3
    · rw [hss]
      exact fun he => hne (sessionKey_nonce hdec' hb ha he).symm
    · rw [hss]
      exact fun he => hne (sessionKey_nonce hdec' hb ha he).symm
  · exact nomatch hreq

/-- Non-trivial case of `C139_replay`: the join-accept of the first join arrives again, in the first window of the second. -/
example : ∃ (log : List Item) (it : Item) (s' : St) (dec : Block → Block → Block) (J : JoinAccept) (req : Bytes) (n : Server),
    Hist Tests.xorEnv (log ++ [it]) s' ∧ (∀ k b, Tests.xorEnv.aes k (dec k b) = b) ∧ (∀ k b, dec k (Tests.xorEnv.aes k b) = b) ∧ J.Fits ∧
    (config Tests.xorEnv log).joining = true ∧ outcome log it = .packet (J.build Tests.xorEnv dec (view Tests.xorEnv log).appKey) ∧
    req ∈ log.flatMap (txs ·.ev) ∧ joinServer Tests.xorEnv (view Tests.xorEnv log).appKey J req = some n ∧
    leNat ((req.drop 17).take 2) ≠ (view Tests.xorEnv log).nonce := by
  have h := Demo.next (ops := Demo.rejoinOps) (op := .event 2 (Tests.rxOf Demo.acceptPkt))
    (by decide +kernel) trivial (by decide +kernel)
  have hs : (joinServer Tests.xorEnv (view Tests.xorEnv (Demo.items Demo.rejoinOps)).appKey demoAccept
      (((Demo.items Demo.rejoinOps).flatMap (txs ·.ev)).headD [])).isSome = true := by decide +kernel
  obtain ⟨n, hn⟩ := Option.isSome_iff_exists.mp hs
  have hd : leNat (((((Demo.items Demo.rejoinOps).flatMap (txs ·.ev)).headD []).drop 17).take 2) ≠
      (view Tests.xorEnv (Demo.items Demo.rejoinOps)).nonce := by decide +kernel
  have hm : ((Demo.items Demo.rejoinOps).flatMap (txs ·.ev)).isEmpty = false := by decide +kernel
  have ho : outcome (Demo.items Demo.rejoinOps) (Demo.nextItem Demo.rejoinOps (.event 2 (Tests.rxOf Demo.acceptPkt))) =
      .packet (demoAccept.build Tests.xorEnv Tests.xorEnv.aes (view Tests.xorEnv (Demo.items Demo.rejoinOps)).appKey) := by
    unfold outcome
    rw [h.2]
    decide +kernel
  have hj : (config Tests.xorEnv (Demo.items Demo.rejoinOps)).joining = true := by decide +kernel
  generalize Demo.items Demo.rejoinOps = log at *
  refine ⟨log, _, _, Tests.xorEnv.aes, demoAccept, (log.flatMap (txs ·.ev)).headD [], n, h.1, xor_back, xor_back,
    by unfold JoinAccept.Fits; decide, hj, ho, ?_, hn, hd⟩
  generalize log.flatMap (txs ·.ev) = l at hm
  cases l with
  | nil => exact nomatch hm
  | cons a l => exact List.mem_cons_self

/-- **C139**, what a replay can do: when the device also draws a DevNonce again it used before, the replayed join-accept takes it back to the
session of that time with its frame counter at 0. Two different payloads are then enciphered with the same key stream: whoever hears both frames
learns the exclusive or of the two texts. -/
theorem C139_reuse : ∃ (log : List Item) (s : St) (j1 f1 j2 f2 : Bytes), Hist Tests.xorEnv log s ∧
    log.flatMap (txs ·.ev) = [j1, f1, j2, f2] ∧ f1.take 9 = f2.take 9 ∧
    List.zipWith (· ^^^ ·) ((f1.drop 9).take 3) ((f2.drop 9).take 3) = List.zipWith (· ^^^ ·) [1, 2, 3] [9, 8, 7] := by
  have hl : (List.length ((Demo.items Demo.reuseOps).flatMap (txs ·.ev))) = 4 := by decide +kernel
  have hx : (fun l : List Bytes => (l.getD 1 []).take 9 = (l.getD 3 []).take 9 ∧
      List.zipWith (· ^^^ ·) (((l.getD 1 []).drop 9).take 3) (((l.getD 3 []).drop 9).take 3) = List.zipWith (· ^^^ ·) [1, 2, 3] [9, 8, 7])
      ((Demo.items Demo.reuseOps).flatMap (txs ·.ev)) := by decide +kernel
  generalize hg : (Demo.items Demo.reuseOps).flatMap (txs ·.ev) = l at hl hx
  match l, hl, hx with
  | [j1, f1, j2, f2], _, hx =>
    exact ⟨_, _, j1, f1, j2, f2, Demo.hist (ops := Demo.reuseOps) (by decide +kernel), hg, hx.1, hx.2⟩

end Uwan
