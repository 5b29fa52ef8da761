import Verif.Spec.Restart
import Verif.Props.Forged
import Verif.Props.Uplink
import Verif.Props.Secrecy

/-!
# C131: a session continued after a restart
-/

namespace Uwan
open Spec

variable {E : Env}

theorem setSession_new {it : Item} {a u d : U32} {n k : Block} (h : it.op = .setSession a u d n k) : newSession it = true := by
  unfold newSession; rw [h]

/-- The observer's view and the downlink counter right after the session was put back. -/
theorem resumed_first {log0 : List Item} {it0 : Item} {a u d : U32} {n k : Block} (h : it0.op = .setSession a u d n k) :
    (view E (log0 ++ [it0])).nwk = n ∧ (view E (log0 ++ [it0])).app = k ∧ (view E (log0 ++ [it0])).addr = a.toNat ∧
    (view E (log0 ++ [it0])).up = u.toNat ∧ (config E (log0 ++ [it0])).down = d.toNat := by
  rw [view_snoc, config_snoc]
  unfold View.next Cfg.next
  rw [h]
  exact ⟨rfl, rfl, rfl, rfl, rfl⟩

/-- C131, uplinks: the application counts the uplinks accepted (from the return values) and passes first counter plus count to
`uwan_set_session` after the restart. Then the next accepted uplink carries on with the counter (16 bits on air, 32 in MIC and
encryption), and no block encrypted for an uplink of the first life is encrypted again in the second, as long as
the two lives together send fewer than 2^32 uplinks. -/
theorem C131_uplink {log1 a b log2 seg2 : List Item} {it0 it1 it2 : Item} {s1 s2 : St} {addr up down : U32} {nwk app : Block}
    {p1 p2 : Byte} {l1 l2 : Bytes} {c1 c2 : Bool} {r1 r2 : Nat}
    (h1 : Hist E (log1 ++ [it0] ++ (a ++ [it1] ++ b)) s1) (hn0 : newSession it0 = true)
    (hn1 : ∀ x ∈ a ++ [it1] ++ b, newSession x = false) (ho1 : it1.op = .send p1 l1 c1 r1) (hr1 : it1.ret = .err .no)
    (h2 : Hist E (log2 ++ [it2]) s2) (hres : Resumed log2 addr up down nwk app seg2)
    (hup : up.toNat = (firstCount it0 + sentCount (a ++ [it1] ++ b)) % 2 ^ 32)
    (ho2 : it2.op = .send p2 l2 c2 r2) (hr2 : it2.ret = .err .no)
    (hlt : sentCount (a ++ [it1] ++ b) + sentCount seg2 < 2 ^ 32) :
    (let n := (firstCount it0 + sentCount (a ++ [it1] ++ b) + sentCount seg2) % 2 ^ 32
     ∃ frame f, txs it2.ev = [frame] ∧ parse frame = some f ∧ f.fCnt = n % 65536 ∧ f.devAddr = addr.toNat ∧
       f.mic = dataMic E nwk 0 addr.toNat n (signed frame) ∧ crypt E app 0 addr.toNat n f.payload = l2) ∧
    ∀ blk, Ev.aesEncrypt blk ∈ it1.ev → Ev.aesEncrypt blk ∉ it2.ev := by
  obtain ⟨⟨log0, r0, rfl, hr0⟩, hn2⟩ := hres
  obtain ⟨e1, e2, e3, e4, -⟩ := resumed_first (E := E) (log0 := log0) hr0
  have hfc : firstCount r0 = up.toNat := by unfold firstCount; rw [hr0]
  constructor
  · have := C06_uplink_counter h2 (setSession_new hr0) hn2 ho2 hr2
    simp only [e1, e2, e3, hfc, hup, Nat.mod_add_mod] at this
    exact this
  · -- the counters differ
    have h1' := h1
    rw [← List.append_assoc, ← List.append_assoc] at h1'
    obtain ⟨t1, g1, -⟩ := Hist.prefix (a := log1 ++ [it0] ++ a ++ [it1]) h1'
    obtain ⟨t0, g0, -⟩ := Hist.prefix (a := log1 ++ [it0] ++ a) g1
    obtain ⟨t00, g00, -⟩ := Hist.prefix (a := log1 ++ [it0]) g0
    obtain ⟨q1, f1, d1, a1⟩ := g1.accepted ho1 hr1
    obtain ⟨q2, f2, d2, a2⟩ := h2.accepted ho2 hr2
    have hA := view_up (E := E) (log1 ++ [it0]) a (fun x hx => hn1 x (by simp [hx]))
    rw [view_first g00 hn0, Nat.mod_eq_of_lt (up_lt g0)] at hA
    have hB := view_up (E := E) (log0 ++ [r0]) seg2 hn2
    rw [e4, hup, Nat.mod_eq_of_lt (up_lt a2.hist)] at hB
    have hc : sentCount (a ++ [it1] ++ b) = sentCount a + 1 + sentCount b := by
      unfold sentCount
      rw [List.countP_append, List.countP_append]
      simp [ho1, hr1]
    have hne : (view E (log1 ++ [it0] ++ a)).up ≠ (view E (log0 ++ [r0] ++ seg2)).up := by
      rw [hA, hB]; omega
    intro blk hb1 hb2
    apply hne
    rw [a1.ev] at hb1
    rw [a2.ev] at hb2
    obtain ⟨i, z1⟩ := sentEv_blocks hb1
    obtain ⟨j, z2⟩ := sentEv_blocks hb2
    rw [(view_hist a1.hist).up, (view_hist a2.hist).up]
    exact blockA_cnt (z1.symm.trans z2) q1.session.fCntUp.isLt q2.session.fCntUp.isLt

theorem drop_at {l : List Item} {n : Nat} {it : Item} (h : l[n]? = some it) : l.drop n = [] ++ [it] ++ l.drop (n + 1) := by
  obtain ⟨hn, rfl⟩ := List.getElem?_eq_some_iff.mp h
  rw [List.nil_append, List.singleton_append]
  exact List.drop_eq_getElem_cons hn

/-- The session of `rollOps` put back after one uplink. -/
def resumeOps : List Op := [.init .eu868, .setSession 0x11223344 65536 0 Tests.appKey Tests.appKey]

-- One uplink with counter 65535, a restart, and the next uplink.
example : ∃ (log1 b log2 seg2 : List Item) (it0 it1 it2 : Item) (s1 s2 : St),
    Hist Tests.xorEnv (log1 ++ [it0] ++ ([] ++ [it1] ++ b)) s1 ∧ newSession it0 = true ∧
    (∀ x ∈ [] ++ [it1] ++ b, newSession x = false) ∧ it1.op = .send 2 [9] false 0 ∧ it1.ret = .err .no ∧
    Hist Tests.xorEnv (log2 ++ [it2]) s2 ∧ Resumed log2 0x11223344 65536 0 Tests.appKey Tests.appKey seg2 ∧
    (65536 : U32).toNat = (firstCount it0 + sentCount ([] ++ [it1] ++ b)) % 2 ^ 32 ∧ it2.op = rollOp ∧ it2.ret = .err .no ∧
    sentCount ([] ++ [it1] ++ b) + sentCount seg2 < 2 ^ 32 ∧ (∃ blk, Ev.aesEncrypt blk ∈ it2.ev) := by
  have hf : Demo.fine rollOps = true := by decide +kernel
  obtain ⟨i0, o0, g0, e0⟩ := Demo.cut hf 2 (by decide)
  obtain ⟨i1, o1, g1, e1⟩ := Demo.cut hf 3 (by decide)
  have hf2 : Demo.fine resumeOps = true := by decide +kernel
  obtain ⟨h2, o2⟩ := Demo.next (op := rollOp) hf2 (by decide) (by decide +kernel)
  obtain ⟨j0, p0, q0, r0⟩ := Demo.cut hf2 1 (by decide)
  have hd := drop_at g1
  have h1 := Demo.hist hf
  rw [e0, hd] at h1
  have hres : Demo.items resumeOps = (Demo.items resumeOps).take 1 ++ [j0] ++ [] := by
    have : (Demo.items resumeOps).drop 2 = [] := by decide +kernel
    rw [this] at r0
    exact r0
  refine ⟨(Demo.items rollOps).take 2, (Demo.items rollOps).drop 4, Demo.items resumeOps, [], i0, i1, _, _, _, h1, ?_, ?_, o1, ?_, h2,
    ⟨⟨_, j0, hres, p0⟩, fun x hx => absurd hx List.not_mem_nil⟩, ?_, o2, by decide +kernel, ?_,
    ⟨blockA 0 0x11223344 65536 1, by decide +kernel⟩⟩
  · unfold newSession; rw [o0]; rfl
  · rw [← hd]; decide +kernel
  · have hx : ((Demo.items rollOps)[3]?.map fun it => it.ret) = some (.err .no) := by decide +kernel
    rw [g1] at hx
    exact Option.some.inj hx
  · rw [← hd]
    have : firstCount i0 = 65535 := by unfold firstCount; rw [o0]; rfl
    rw [this]
    decide +kernel
  · rw [← hd]; decide +kernel

theorem far_lt {x y z a b k N : Nat} (h : x + k * (a + b + 1) < N) (hy : y ≤ x + k * a) (hz : z ≤ y + k * b) : z + k < N := by
  rw [Nat.mul_add, Nat.mul_add, Nat.mul_one] at h
  omega

/-- C131, downlinks, what holds: when the session is put back with the counter the stack had reached (not 0, and the counter not near
2^32), then every downlink accepted in the second life has a greater counter, and bytes accepted in the first life are not
accepted again unless the CMACs of two different messages agree in their first four bytes. Missing: the application is not told
that counter (`C131_untold`), and no other value does (`C131_only`). -/
theorem C131_downlink_partial {log1 seg1 log2 seg2 : List Item} {it1 it2 : Item} {s1 s2 : St} {addr up : U32} {nwk app : Block} {l : Bytes}
    (h1 : Hist E (log1 ++ [it1] ++ seg1) s1) (ho1 : outcome log1 it1 = .packet l) (hj1 : (config E log1).joining = false)
    (hr1 : (results it1.ev).map (·.1) = [.no]) (hn1 : ∀ x ∈ seg1, newSession x = false)
    (h2 : Hist E (log2 ++ [it2]) s2) (hres : Resumed log2 addr up s1.session.fCntDown nwk app seg2)
    (ho2 : outcome log2 it2 = .packet l) (hj2 : (config E log2).joining = false) (hr2 : (results it2.ev).map (·.1) = [.no])
    (hk : nwk = (view E log1).nwk) (ha : addr.toNat = (view E log1).addr) (h0 : it1.post.session.fCntDown ≠ 0)
    (hb : it1.post.session.fCntDown.toNat + 131071 * (reports (trace seg1) + reports (trace seg2) + 1) < 2 ^ 32) :
    s1.session.fCntDown.toNat < s2.session.fCntDown.toNat ∧
    ∃ m1 m2, m1 ≠ m2 ∧ (E.cmac nwk m1).toList.take 4 = (E.cmac nwk m2).toList.take 4 := by
  obtain ⟨⟨log0, r0, rfl, hr0⟩, hn2⟩ := hres
  obtain ⟨e1, -, e3, -, e5⟩ := resumed_first (E := E) (log0 := log0) hr0
  obtain ⟨t1, g1, -⟩ := Hist.prefix (a := log1 ++ [it1]) h1
  obtain ⟨-, -, -, hpost, -⟩ := g1.last
  obtain ⟨-, f, hp, -, hm1⟩ := g1.taken ho1 hj1 hr1
  obtain ⟨-, f2, hp2, hd2, hm2⟩ := h2.taken ho2 hj2 hr2
  rw [hp] at hp2
  cases hp2
  have hd1 : (config E (log1 ++ [it1])).down = it1.post.session.fCntDown.toNat := by
    show _ = (cfgOf it1.post).down
    rw [hpost, config_hist g1]
  have hz : it1.post.session.fCntDown.toNat ≠ 0 := fun hz => h0 (BitVec.eq_of_toNat_eq hz)
  obtain ⟨-, -, k3, k4⟩ := down_seg h1 hn1 (by rw [hd1]; exact hz) (by rw [hd1]; omega)
  have hs1 : (config E (log1 ++ [it1] ++ seg1)).down = s1.session.fCntDown.toNat := by
    rw [← config_hist h1]; rfl
  rw [hs1, hd1] at k3 k4
  obtain ⟨t2, g2, -⟩ := h2.last
  obtain ⟨m1, m2, m3, m4⟩ := down_seg g2 hn2 (by rw [e5]; omega) (by rw [e5]; omega)
  rw [e5] at m3 m4
  have hlt : (config E (log0 ++ [r0] ++ seg2)).down + 131071 < 2 ^ 32 := by
    exact far_lt hb k4 m4
  have hgt := nextDown_gt hd2 (fun hx => by rw [hx] at m3; omega) hlt (parse_fCnt hp)
  refine ⟨by omega, ?_⟩
  rw [m1, m2, e1, e3, ha] at hm2
  rw [← hpost, ← hk] at hm1
  refine ⟨_, _, ?_, hm1.symm.trans hm2⟩
  intro he
  have := bytesB0_inj (BitVec.isLt _) (BitVec.isLt _) he
  omega

/-- The session of `dlOps` put back with the counter reached after the downlinks 1 and 20000. -/
def resumeDown : List Op :=
  [.init .eu868, .setSession 0x01020304 2 85536 Tests.appKey Tests.appKey, .send 2 [1] false 0, .event 4 (Tests.rxOf []), .timer .rx1]

-- A cipher whose MIC is the same for all counters: the first downlink is accepted again, with the counter 131073.
example : ∃ (log1 seg1 log2 seg2 : List Item) (it1 it2 : Item) (s1 s2 : St) (l : Bytes),
    Hist Tests.xorEnv (log1 ++ [it1] ++ seg1) s1 ∧ outcome log1 it1 = .packet l ∧ (config Tests.xorEnv log1).joining = false ∧
    (results it1.ev).map (·.1) = [.no] ∧ (∀ x ∈ seg1, newSession x = false) ∧ Hist Tests.xorEnv (log2 ++ [it2]) s2 ∧
    Resumed log2 0x01020304 2 s1.session.fCntDown Tests.appKey Tests.appKey seg2 ∧ outcome log2 it2 = .packet l ∧
    (config Tests.xorEnv log2).joining = false ∧ (results it2.ev).map (·.1) = [.no] ∧
    Tests.appKey = (view Tests.xorEnv log1).nwk ∧ (0x01020304 : U32).toNat = (view Tests.xorEnv log1).addr ∧
    it1.post.session.fCntDown ≠ 0 ∧
    it1.post.session.fCntDown.toNat + 131071 * (reports (trace seg1) + reports (trace seg2) + 1) < 2 ^ 32 := by
  have h := Demo.two (a := dlOps) (b := againOps) (op1 := .event 2 (Tests.rxOf (dlFrame helloDown 1)))
    (op2 := .event 2 (Tests.rxOf (dlFrame helloDown 20000))) (by decide +kernel)
  rw [List.append_assoc (Demo.items dlOps ++ _)] at h
  have hf2 : Demo.fine resumeDown = true := by decide +kernel
  obtain ⟨h2, o2⟩ := Demo.next (op := .event 2 (Tests.rxOf (dlFrame helloDown 1))) hf2 (by decide +kernel) (by decide +kernel)
  obtain ⟨j0, p0, q0, r0⟩ := Demo.cut hf2 1 (by decide)
  refine ⟨_, _, _, (Demo.items resumeDown).drop 2, _, _, _, _, dlFrame helloDown 1, h, by decide +kernel, by decide +kernel,
    by decide +kernel, by decide +kernel, h2, ⟨⟨_, j0, r0, ?_⟩, by decide +kernel⟩, by decide +kernel, by decide +kernel, by decide +kernel,
    by decide +kernel, by decide +kernel, by decide +kernel, by decide +kernel⟩
  rw [p0]
  have : (Demo.nextItem (dlOps ++ [Op.event 2 (Tests.rxOf (dlFrame helloDown 1))] ++ againOps)
    (.event 2 (Tests.rxOf (dlFrame helloDown 20000)))).post.session.fCntDown = 85536 := by decide +kernel
  rw [this]
  rfl

theorem nextDown_only {d b : Nat} (hd : d < 2 ^ 32) (hb0 : 0 < b) (hb : b % 65536 < 16384) (hb1 : b + 1 < 2 ^ 32)
    (h : nextDown d ((b + 1) % 65536) = some (b + 1)) (h' : nextDown d (b % 65536) ≠ some b) : d = b := by
  apply Classical.byContradiction
  intro hne
  apply h'
  have e : (b + 1) % 65536 = b % 65536 + 1 := by omega
  unfold nextDown at h ⊢
  rw [e] at h
  by_cases h0 : d = 0
  · simp only [if_pos h0] at h ⊢
    simp only [Option.some.injEq] at h ⊢
    omega
  simp only [if_neg h0] at h ⊢
  by_cases h1 : (b % 65536 + 1 + 65536 - d % 65536) % 65536 = 0
  · rw [if_pos h1] at h; cases h
  rw [if_neg h1] at h
  by_cases h2 : (b % 65536 + 1 + 65536 - d % 65536) % 65536 ≤ 16384
  · rw [if_pos h2] at h
    simp only [Option.some.injEq] at h
    have e2 : (b % 65536 + 65536 - d % 65536) % 65536 = (b % 65536 + 1 + 65536 - d % 65536) % 65536 - 1 := by omega
    by_cases h3 : (b % 65536 + 65536 - d % 65536) % 65536 = 0
    · omega
    · rw [if_neg h3, if_pos (by omega)]
      congr 1
      omega
  · rw [if_neg h2] at h
    simp only [Option.some.injEq] at h
    have h3 : (b % 65536 + 65536 - d % 65536) % 65536 ≠ 0 := by omega
    rw [if_neg h3]
    by_cases h4 : (b % 65536 + 65536 - d % 65536) % 65536 ≤ 16384
    · rw [if_pos h4]
      congr 1
      omega
    · rw [if_neg h4]
      congr 1
      omega

theorem nextDown_low {c f d : Nat} (h : nextDown c f = some d) (hf : f < 65536) : d % 65536 = f := by
  unfold nextDown at h
  simp only at h
  by_cases h0 : c = 0
  · rw [if_pos h0] at h
    simp only [Option.some.injEq] at h
    omega
  rw [if_neg h0] at h
  by_cases h1 : (f + 65536 - c % 65536) % 65536 = 0
  · rw [if_pos h1] at h; cases h
  rw [if_neg h1] at h
  by_cases h2 : (f + 65536 - c % 65536) % 65536 ≤ 16384
  · rw [if_pos h2] at h
    simp only [Option.some.injEq] at h
    omega
  · rw [if_neg h2] at h
    simp only [Option.some.injEq] at h
    omega

/-- C131, why no other value does: a frame `lB` was accepted before the restart, with counter `b`. Whatever downlink counter the
application passes after the restart, if with it the stack can accept the network's next frame `lG`, with counter `b + 1`, and can
refuse `lB`, then it is `b`. -/
theorem C131_only {logB : List Item} {itB : Item} {sB : St} {addr down : U32} {nwk app : Block} {lG lB : Bytes} {b : Nat}
    (hB : Hist E (logB ++ [itB]) sB) (hoB : outcome logB itB = .packet lB) (hjB : (config E logB).joining = false)
    (hrB : (results itB.ev).map (·.1) = [.no]) (hkB : (view E logB).nwk = nwk) (haB : (view E logB).addr = addr.toNat)
    (hcB : sB.session.fCntDown.toNat = b) (hb0 : 0 < b) (hb : b % 65536 < 16384) (hb1 : b + 1 < 2 ^ 32)
    (hnext : FrameOf E addr nwk (b + 1) lG) (hc : Continues E addr down nwk app lG lB) : down.toNat = b := by
  obtain ⟨f, hf, hcnt, hmic, hsep⟩ := hnext
  obtain ⟨⟨logG, segG, itG, sG, upG, hG, hresG, hsG, hoG, hjG, hrG⟩, ⟨logR, segR, itR, sR, upR, hR, hresR, hsR, hoR, hjR, hrR⟩⟩ := hc
  replace hrG := hrG.mpr rfl
  replace hrR : (results itR.ev).map (·.1) ≠ [.no] := fun h => Bool.false_ne_true (hrR.mp h)
  obtain ⟨⟨logG0, g0, rfl, hg0⟩, hnG⟩ := hresG
  obtain ⟨⟨logR0, r0, rfl, hr0⟩, hnR⟩ := hresR
  obtain ⟨eg1, -, eg3, -, eg5⟩ := resumed_first (E := E) (log0 := logG0) hg0
  obtain ⟨er1, -, er3, -, er5⟩ := resumed_first (E := E) (log0 := logR0) hr0
  obtain ⟨tG, qG, -⟩ := hG.last
  obtain ⟨tR, qR, -⟩ := hR.last
  obtain ⟨kg1, -, kg3, kg4⟩ := kept_seg qG hnG (fun x hx r hr => by rw [hsG x hx] at hr; cases hr)
  obtain ⟨kr1, -, kr3, kr4⟩ := kept_seg qR hnR (fun x hx r hr => by rw [hsR x hx] at hr; cases hr)
  obtain ⟨-, fG, hpG, hdG, hmG⟩ := hG.taken hoG hjG hrG
  rw [hf] at hpG
  cases hpG
  rw [kg1, eg1, kg3, eg3] at hmG
  have hca := hsep _ (BitVec.isLt _) hmG.symm
  rw [kg4, eg5, hca, hcnt] at hdG
  -- the frame accepted before the restart
  obtain ⟨tB, mB, oB, mtB, GB, -⟩ := hB.gotData hoB hjB
  have hvB := GB.results
  rw [hvB] at hrB
  simp only [List.map_cons, List.map_nil, List.cons.injEq, and_true] at hrB
  obtain ⟨v1, v2, v3, v4, fB, dB, hpB, hdB, hmB⟩ := (verdict_accepted _ _ _).mp hrB
  obtain ⟨-, fB', hpB', hdB', -⟩ := hB.taken hoB hjB (by rw [hvB, hrB]; rfl)
  rw [hpB] at hpB'
  cases hpB'
  rw [hdB, hcB] at hdB'
  simp only [Option.some.injEq] at hdB'
  subst hdB'
  have hfc := nextDown_low hdB (parse_fCnt hpB)
  refine nextDown_only (BitVec.isLt down) hb0 hb hb1 hdG (fun hnx => hrR ?_)
  obtain ⟨tR', mR, oR, mtR, GR, -⟩ := hR.gotData hoR hjR
  have hvR : verdict E (view E (logR0 ++ [r0] ++ segR)) (config E (logR0 ++ [r0] ++ segR)).down lB = .no := by
    rw [verdict_accepted]
    refine ⟨v1, v2, v3, by rw [kr3, er3, ← haB]; exact v4, fB, dB, hpB, ?_, ?_⟩
    · rw [kr4, er5, ← hfc]; exact hnx
    · rw [kr1, er1, kr3, er3, ← haB, ← hkB]; exact hmB
  rw [GR.results, hvR]
  rfl

/-! ### Concrete cases -/

/-- A cipher whose MIC shows the frame counter. -/
def cntEnv : Env := ⟨Tests.xorEnv.aes, fun _ m => blockOf ((m.drop 10).take 4 ++ List.replicate 12 0)⟩

/-- The items of a run. -/
def cntItems (ops : List Op) : List Item := ((logOf cntEnv .boot ops).map (·.1)).getD []
/-- The state it ends in. -/
def cntFinal (ops : List Op) : St := ((logOf cntEnv .boot ops).map (·.2)).getD .boot

theorem cnt_hist {ops : List Op} (h : ((logOf cntEnv .boot ops).isSome && ops.all fun o => decide o.Valid) = true) :
    Hist cntEnv (cntItems ops) (cntFinal ops) := by
  obtain ⟨h1, h2⟩ := Bool.and_eq_true_iff.mp h
  obtain ⟨x, hx⟩ := Option.isSome_iff_exists.mp h1
  unfold cntItems cntFinal
  rw [hx]
  exact logOf_seg ops _ _ _ (fun o ho => of_decide_eq_true (List.all_eq_true.mp h2 o ho)) hx

/-- The device waits for a downlink in its first window; the session was put in place with these counters. -/
def waitOps (up down : U32) : List Op :=
  [.init .eu868, .setSession 0x01020304 up down Tests.appKey Tests.appKey, .send 2 [1] false 0, .event 4 (Tests.rxOf []), .timer .rx1]

/-- A downlink with the counter `cnt`. -/
def cntFrame (cnt : Nat) : Bytes := helloDown.build cntEnv Tests.appKey Tests.appKey 0x01020304 cnt

/-- It arrives. -/
def meetOps (up down : U32) (cnt : Nat) : List Op := waitOps up down ++ [.event 2 (Tests.rxOf (cntFrame cnt))]

theorem dataMic_cnt (k : Block) (dir a c : Nat) (m : Bytes) : dataMic cntEnv k dir a c m = leBytes 4 c := by
  unfold dataMic cntEnv bytesB0
  have e : ([0x49, 0, 0, 0, 0, BitVec.ofNat 8 dir] ++ leBytes 4 a ++ leBytes 4 c ++ [0, BitVec.ofNat 8 m.length] ++ m : Bytes) =
      ([0x49, 0, 0, 0, 0, BitVec.ofNat 8 dir] ++ leBytes 4 a) ++ (leBytes 4 c ++ ([0, BitVec.ofNat 8 m.length] ++ m)) := by simp
  simp only
  rw [e, List.drop_left' (by simp [leBytes_length]), List.take_left' (by simp [leBytes_length]),
    blockOf_toList (by simp [leBytes_length]), List.take_left' (by simp [leBytes_length])]

theorem cntFrame_of {cnt : Nat} (hc : cnt < 2 ^ 32)
    (hp : (parse (cntFrame cnt)).map (fun f => (f.fCnt, f.mic)) = some (cnt % 65536, leBytes 4 cnt)) :
    FrameOf cntEnv 0x01020304 Tests.appKey cnt (cntFrame cnt) := by
  obtain ⟨f, hp, h⟩ := Option.map_eq_some_iff.mp hp
  rw [Prod.mk.injEq] at h
  refine ⟨f, hp, h.1, by rw [dataMic_cnt]; exact h.2, fun c hc' he => ?_⟩
  rw [dataMic_cnt, h.2] at he
  have := congrArg leNat he
  rw [leNat_leBytes, leNat_leBytes] at this
  omega

theorem cntItems_op {ops : List Op} (h : (logOf cntEnv .boot ops).isSome = true) : (cntItems ops).map (·.op) = ops := by
  obtain ⟨x, hx⟩ := Option.isSome_iff_exists.mp h
  unfold cntItems
  rw [hx]
  exact logOf_op _ _ _ _ hx

theorem six {l : List Item} {a b c d e f : Op} (h : l.map (·.op) = [a, b, c, d, e, f]) :
    ∃ i0 i1 i5, i1.op = b ∧ l[5]? = some i5 ∧ l = [i0] ++ [i1] ++ (l.drop 2).take 3 ++ [i5] := by
  obtain ⟨i0, l, rfl, -, h⟩ := List.map_eq_cons_iff.mp h
  obtain ⟨i1, l, rfl, h1, h⟩ := List.map_eq_cons_iff.mp h
  obtain ⟨i2, l, rfl, -, h⟩ := List.map_eq_cons_iff.mp h
  obtain ⟨i3, l, rfl, -, h⟩ := List.map_eq_cons_iff.mp h
  obtain ⟨i4, l, rfl, -, h⟩ := List.map_eq_cons_iff.mp h
  obtain ⟨i5, l, rfl, -, h⟩ := List.map_eq_cons_iff.mp h
  cases List.map_eq_nil_iff.mp h
  exact ⟨i0, i1, i5, h1, rfl, rfl⟩

/-- The packet that comes last in such a run. -/
theorem meet_run {up down : U32} {cnt : Nat}
    (h : ((logOf cntEnv .boot (meetOps up down cnt)).isSome && (meetOps up down cnt).all fun o => decide o.Valid) = true) :
    ∃ i0 i1 i5, i1.op = .setSession 0x01020304 up down Tests.appKey Tests.appKey ∧ (cntItems (meetOps up down cnt))[5]? = some i5 ∧
      cntItems (meetOps up down cnt) = [i0] ++ [i1] ++ ((cntItems (meetOps up down cnt)).drop 2).take 3 ++ [i5] := by
  exact six (cntItems_op (Bool.and_eq_true_iff.mp h).1)

/-- What is checked of such a run. -/
def meetCheck (up down : U32) (cnt : Nat) (ok : Bool) : Bool :=
  ((logOf cntEnv .boot (meetOps up down cnt)).isSome && (meetOps up down cnt).all fun o => decide o.Valid) &&
  (((cntItems (meetOps up down cnt)).drop 2).take 3).all (fun x => !newSession x && (results x.ev).isEmpty) &&
  !(config cntEnv ((cntItems (meetOps up down cnt)).take 5)).joining &&
  match (cntItems (meetOps up down cnt))[5]? with
  | some it => decide (outcome ((cntItems (meetOps up down cnt)).take 5) it = .packet (cntFrame cnt)) &&
      (decide ((results it.ev).map (·.1) = [.no]) == ok)
  | none => false

theorem meet_full {up down : U32} {cnt : Nat} {ok : Bool} (h : meetCheck up down cnt ok = true) :
    ∃ log seg it, Hist cntEnv (log ++ [it]) (cntFinal (meetOps up down cnt)) ∧ cntItems (meetOps up down cnt) = log ++ [it] ∧
      Resumed log 0x01020304 up down Tests.appKey Tests.appKey seg ∧ (∀ x ∈ seg, results x.ev = []) ∧
      outcome log it = .packet (cntFrame cnt) ∧ (config cntEnv log).joining = false ∧ ((results it.ev).map (·.1) = [.no] ↔ ok = true) := by
  unfold meetCheck at h
  simp only [Bool.and_eq_true] at h
  obtain ⟨⟨⟨h1, h2⟩, h3⟩, h4⟩ := h
  obtain ⟨i0, i1, i5, g1, g2, g3⟩ := meet_run (Bool.and_eq_true_iff.mpr h1)
  rw [g2] at h4
  simp only [Bool.and_eq_true, decide_eq_true_eq, beq_iff_eq] at h4
  have ht : (cntItems (meetOps up down cnt)).take 5 = [i0] ++ [i1] ++ ((cntItems (meetOps up down cnt)).drop 2).take 3 := by
    generalize ((cntItems (meetOps up down cnt)).drop 2).take 3 = seg at *
    have hl := congrArg List.length g3
    have h6 : (cntItems (meetOps up down cnt)).length = 6 := by
      have := congrArg List.length (cntItems_op h1.1)
      rwa [List.length_map] at this
    rw [h6] at hl
    rw [g3]
    exact List.take_left' (by simpa using hl.symm)
  have hh := cnt_hist (Bool.and_eq_true_iff.mpr h1)
  rw [List.all_eq_true] at h2
  rw [ht] at h3 h4
  rw [g3] at hh
  refine ⟨_, _, i5, hh, g3, ⟨⟨[i0], i1, rfl, g1⟩, fun x hx => ?_⟩, fun x hx => ?_, h4.1, ?_, ?_⟩
  · have := h2 x hx
    simp only [Bool.and_eq_true, Bool.not_eq_true'] at this
    exact this.1
  · have := h2 x hx
    simp only [Bool.and_eq_true, List.isEmpty_iff] at this
    exact this.2
  · simpa using h3
  · rw [← h4.2, decide_eq_true_eq]

theorem meet_first {up down : U32} {cnt : Nat} {ok : Bool} (h : meetCheck up down cnt ok = true) :
    MeetsFirst cntEnv 0x01020304 down Tests.appKey Tests.appKey (cntFrame cnt) ok := by
  obtain ⟨log, seg, it, h1, -, h2, h3, h4, h5, h6⟩ := meet_full h
  exact ⟨log, seg, it, _, up, h1, h2, h3, h4, h5, h6⟩

/-- A life that ends with an accepted downlink. -/
theorem life {up down : U32} {cnt : Nat} (h : meetCheck up down cnt true = true) :
    ∃ log it, Hist cntEnv (log ++ [it]) (cntFinal (meetOps up down cnt)) ∧ cntItems (meetOps up down cnt) = log ++ [it] ∧
      outcome log it = .packet (cntFrame cnt) ∧ (config cntEnv log).joining = false ∧ (results it.ev).map (·.1) = [.no] ∧
      (view cntEnv log).nwk = Tests.appKey ∧ (view cntEnv log).addr = (0x01020304 : U32).toNat := by
  obtain ⟨log, seg, it, h1, h2, ⟨⟨log0, it0, rfl, hs⟩, hn⟩, h3, h4, h5, h6⟩ := meet_full h
  obtain ⟨t, g, -⟩ := h1.last
  obtain ⟨k1, -, k3, -⟩ := kept_seg g hn (fun x hx r hr => by rw [h3 x hx] at hr; cases hr)
  obtain ⟨e1, -, e3, -⟩ := resumed_first (E := cntEnv) (log0 := log0) hs
  exact ⟨_, it, h1, h2, h4, h5, h6.mpr rfl, by rw [k1, e1], by rw [k3, e3]⟩

theorem told_eq : ∀ {l l' : List Item}, (l.map (·.op)).map toldOp = (l'.map (·.op)).map toldOp → l.map (·.ret) = l'.map (·.ret) →
    l.map (fun it => toldEv it.ev) = l'.map (fun it => toldEv it.ev) → told l = told l'
  | [], [], _, _, _ => rfl
  | [], _ :: _, _, h, _ => by simp at h
  | _ :: _, [], _, h, _ => by simp at h
  | i :: l, j :: l', h1, h2, h3 => by
    simp only [List.map_cons, List.cons.injEq] at h1 h2 h3
    have := told_eq h1.2 h2.2 h3.2
    unfold told at this ⊢
    simp only [List.map_cons, this, h1.1, h2.1, h3.1]

theorem toldOp_event (m : Byte) (x y : Bytes) : toldOp (.event m (Tests.rxOf x)) = toldOp (.event m (Tests.rxOf y)) := rfl

theorem meetOps_told (up down : U32) (a b : Nat) : (meetOps up down a).map toldOp = (meetOps up down b).map toldOp := by
  unfold meetOps
  rw [List.map_append, List.map_append, List.map_singleton, List.map_singleton, toldOp_event 2 (cntFrame a) (cntFrame b)]

/-- The values returned in such a run. -/
def toldRets : List Ret := [.unit, .unit, .err .no, .unit, .unit, .unit]
/-- What the callbacks are given in it. -/
def toldEvs : List (List Ev) :=
  [[], [], [], [], [], [.downlink .no 3 ⟨some [0x68, 0x69], 7, BitVec.ofInt 16 (-120), BitVec.ofInt 8 (-5)⟩]]

/-- C131, the counter is not told: two devices with the same session went through histories of which their applications know the same
(calls, return values, callbacks), but have reached different downlink counters. No value put back after the restart lets both
accept the network's next frame and refuse the last one; each of them has such a value. -/
theorem C131_untold : ∃ (E : Env) (addr : U32) (nwk app : Block) (log1 log2 : List Item) (it1 it2 : Item) (s1 s2 : St) (l1 l2 n1 n2 : Bytes),
    Hist E (log1 ++ [it1]) s1 ∧ Hist E (log2 ++ [it2]) s2 ∧ told (log1 ++ [it1]) = told (log2 ++ [it2]) ∧
    outcome log1 it1 = .packet l1 ∧ (results it1.ev).map (·.1) = [.no] ∧
    outcome log2 it2 = .packet l2 ∧ (results it2.ev).map (·.1) = [.no] ∧
    FrameOf E addr nwk (s1.session.fCntDown.toNat + 1) n1 ∧ FrameOf E addr nwk (s2.session.fCntDown.toNat + 1) n2 ∧
    Continues E addr s1.session.fCntDown nwk app n1 l1 ∧ Continues E addr s2.session.fCntDown nwk app n2 l2 ∧
    ∀ down, ¬(Continues E addr down nwk app n1 l1 ∧ Continues E addr down nwk app n2 l2) := by
  have c1 : meetCheck 0 0 1 true = true := by decide +kernel
  have c2 : meetCheck 0 0 10000 true = true := by decide +kernel
  have d1 : (cntFinal (meetOps 0 0 1)).session.fCntDown = 1 := by decide +kernel
  have d2 : (cntFinal (meetOps 0 0 10000)).session.fCntDown = 10000 := by decide +kernel
  have ht : told (cntItems (meetOps 0 0 1)) = told (cntItems (meetOps 0 0 10000)) := by
    have o1 := cntItems_op (ops := meetOps 0 0 1) (by decide +kernel)
    have o2 := cntItems_op (ops := meetOps 0 0 10000) (by decide +kernel)
    have r1 : (cntItems (meetOps 0 0 1)).map (·.ret) = toldRets := by decide +kernel
    have r2 : (cntItems (meetOps 0 0 10000)).map (·.ret) = toldRets := by decide +kernel
    have t1 : (cntItems (meetOps 0 0 1)).map (fun it => toldEv it.ev) = toldEvs := by decide +kernel
    have t2 : (cntItems (meetOps 0 0 10000)).map (fun it => toldEv it.ev) = toldEvs := by decide +kernel
    refine told_eq ?_ (r1.trans r2.symm) (t1.trans t2.symm)
    rw [o1, o2]
    exact meetOps_told 0 0 1 10000
  obtain ⟨log1, it1, a1, a2, a3, a4, a5, a6, a7⟩ := life c1
  obtain ⟨log2, it2, b1, b2, b3, b4, b5, b6, b7⟩ := life c2
  have f1 : FrameOf cntEnv 0x01020304 Tests.appKey (1 + 1) (cntFrame 2) := cntFrame_of (by decide) (by decide +kernel)
  have f2 : FrameOf cntEnv 0x01020304 Tests.appKey (10000 + 1) (cntFrame 10001) := cntFrame_of (by decide) (by decide +kernel)
  rw [a2, b2] at ht
  refine ⟨cntEnv, 0x01020304, Tests.appKey, Tests.appKey, log1, log2, it1, it2, _, _, cntFrame 1, cntFrame 10000, cntFrame 2, cntFrame 10001,
    a1, b1, ht, a3, a5, b3, b5, by rw [d1]; exact f1, by rw [d2]; exact f2, ?_, ?_, ?_⟩
  · rw [d1]; exact ⟨meet_first (up := 1) (by decide +kernel), meet_first (up := 1) (by decide +kernel)⟩
  · rw [d2]; exact ⟨meet_first (up := 1) (by decide +kernel), meet_first (up := 1) (by decide +kernel)⟩
  · intro down ⟨q1, q2⟩
    have e1 := C131_only a1 a3 a4 a5 a6 a7 (by rw [d1]; rfl) (by decide) (by decide) (by decide) f1 q1
    have e2 := C131_only b1 b3 b4 b5 b6 b7 (by rw [d2]; rfl) (by decide) (by decide) (by decide) f2 q2
    exact absurd (e1.symm.trans e2) (by decide)

end Uwan
