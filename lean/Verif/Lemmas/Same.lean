import Verif.Lemmas.Mark
import Verif.Lemmas.Observe
import Verif.Lemmas.Stage
import Verif.Spec.Same

/-!
# States that agree on everything observable behave alike
-/

namespace Uwan
open Spec

variable {E : Env}

theorem Mask.ext_isSet {a b : Mask} (h : ∀ i, i < 16 → a.isSet i = b.isSet i) : a = b := by
  have hb : ∀ (x y : Byte), (∀ i, i < 8 → ((x &&& (1#8 <<< i)) != 0) = ((y &&& (1#8 <<< i)) != 0)) → x = y := by
    intro x y hxy
    apply BitVec.eq_of_getLsbD_eq
    intro i hi
    have key : ∀ z : Byte, ((z &&& (1#8 <<< i)) != 0) = z.getLsbD i := by
      intro z
      have : ∀ (j : Fin 8) (z : BitVec 8), ((z &&& (1#8 <<< j.val)) != 0) = z.getLsbD j.val := by decide +kernel
      exact this ⟨i, hi⟩ z
    rw [← key, ← key, hxy i hi]
  obtain ⟨a0, a1⟩ := a
  obtain ⟨b0, b1⟩ := b
  have h0 : a0 = b0 := hb _ _ fun i hi => by
    have := h i (by omega)
    simpa [Mask.isSet, Mask.byte, Nat.div_eq_of_lt hi, Nat.mod_eq_of_lt hi] using this
  have h1 : a1 = b1 := hb _ _ fun i hi => by
    have := h (8 + i) (by omega)
    have e1 : (8 + i) / 8 = 1 := by omega
    have e2 : (8 + i) % 8 = i := by omega
    simpa [Mask.isSet, Mask.byte, e1, e2] using this
  rw [h0, h1]

theorem chan_top {a b : Chan} (hf : chFreq a = chFreq b) (ho : chOn a = chOn b) : b = a.top b.maxCount := by
  have hm : b.mask = a.mask := by
    refine Mask.ext_isSet fun i hi => ?_
    have := congrFun ho i
    simp only [chOn, hi, decide_true, Bool.true_and] at this
    exact this.symm
  have hv : b.freq = a.freq := by
    apply Vector.ext
    intro i hi
    have := congrFun hf i
    simp only [chFreq, Chan.freqAt] at this
    have := BitVec.eq_of_toNat_eq this
    simpa [hi] using this.symm
  cases b
  simp only at hm hv
  subst hm hv
  rfl

/-- Agreement on everything that is observed. -/
theorem state_eq {s t : St} (hi : Inv s) (hj : Inv t) {v : View} (h1 : ViewOf v s) (h2 : ViewOf v t) (hc : cfgOf s = cfgOf t)
    (hp : s.phase = t.phase) : t = mrk t.chan.maxCount (put t.frame t.pp s) := by
  have hchan := chan_top (congrArg Cfg.freq hc) (congrArg Cfg.on hc)
  have hsess : t.session = s.session := by
    have a1 := h1.joined.symm.trans h2.joined
    have a2 := BitVec.eq_of_toNat_eq (h1.addr.symm.trans h2.addr)
    have a3 := BitVec.eq_of_toNat_eq (h1.up.symm.trans h2.up)
    have a4 := h1.nwk.symm.trans h2.nwk
    have a5 := h1.app.symm.trans h2.app
    have a6 : s.session.ackRequired = t.session.ackRequired := congrArg Cfg.ack hc
    have a7 : s.session.dr = t.session.dr := congrArg Cfg.dr hc
    have a8 := BitVec.eq_of_toNat_eq (show s.session.fCntDown.toNat = t.session.fCntDown.toNat from congrArg Cfg.down hc)
    generalize s.session = x at *
    generalize t.session = y at *
    cases x; cases y
    simp_all
  have hmac : t.mac = s.mac := by
    have a1 : s.mac.queue = t.mac.queue := congrArg Cfg.queue hc
    have a2 : s.mac.cbs = t.mac.cbs := congrArg Cfg.cbs hc
    have a3 : s.mac.saveDevTime = t.mac.saveDevTime := congrArg Cfg.stamp hc
    have a4 := BitVec.eq_of_toNat_eq (show s.mac.devTime.toNat = t.mac.devTime.toNat from congrArg Cfg.devTime hc)
    generalize s.mac = x at *
    generalize t.mac = y at *
    cases x; cases y
    simp_all
  have hadr : t.adr = s.adr := by
    have a1 : s.adr.enabled = t.adr.enabled := congrArg Cfg.adr hc
    have a2 := BitVec.eq_of_toNat_eq (show s.adr.ackLimit.toNat = t.adr.ackLimit.toNat from congrArg Cfg.limit hc)
    have a3 := BitVec.eq_of_toNat_eq (show s.adr.ackDelay.toNat = t.adr.ackDelay.toNat from congrArg Cfg.adrDelay hc)
    have a4 := BitVec.eq_of_toNat_eq (show s.adr.ackCnt.toNat = t.adr.ackCnt.toNat from congrArg Cfg.cnt hc)
    generalize s.adr = x at *
    generalize t.adr = y at *
    cases x; cases y
    simp_all
  have hdel : t.defaultRx1Delay = s.defaultRx1Delay := by
    obtain ⟨d, d1, d2, hd⟩ := hi.delay
    obtain ⟨e, e1, e2, he⟩ := hj.delay
    have a : s.defaultRx1Delay.toNat / 1000 = t.defaultRx1Delay.toNat / 1000 := congrArg Cfg.delay hc
    rw [hd, he] at a
    simp only [BitVec.toNat_ofNat] at a
    rw [Nat.mod_eq_of_lt (by omega), Nat.mod_eq_of_lt (by omega)] at a
    have : d = e := by omega
    rw [hd, he, this]
  have b1 : s.region = t.region := congrArg Cfg.region hc
  have b2 := BitVec.eq_of_toNat_eq (show s.rx2Freq.toNat = t.rx2Freq.toNat from congrArg Cfg.rx2Freq hc)
  have b3 : s.rx2Dr = t.rx2Dr := congrArg Cfg.rx2Dr hc
  have b4 := BitVec.eq_of_toNat_eq (show s.rx1Offset.toNat = t.rx1Offset.toNat from congrArg Cfg.off hc)
  have b5 : s.defaultDr = t.defaultDr := congrArg Cfg.defDr hc
  have b6 := BitVec.eq_of_toNat_eq (show s.nbTrans.toNat = t.nbTrans.toNat from congrArg Cfg.nb hc)
  have b7 := BitVec.eq_of_toNat_eq (show s.defaultNbTrans.toNat = t.defaultNbTrans.toNat from congrArg Cfg.defNb hc)
  have b8 := BitVec.eq_of_toNat_eq (show s.txPower.toNat = t.txPower.toNat from congrArg Cfg.pow hc)
  have b9 := BitVec.eq_of_toNat_eq (show s.defaultTxPower.toNat = t.defaultTxPower.toNat from congrArg Cfg.defPow hc)
  have b10 := BitVec.eq_of_toInt_eq (show s.maxEirp.toInt = t.maxEirp.toInt from congrArg Cfg.eirp hc)
  have b11 := BitVec.eq_of_toInt_eq (show s.snr.toInt = t.snr.toInt from congrArg Cfg.snr hc)
  have b12 : s.joinState = t.joinState := congrArg Cfg.joining hc
  have b13 := BitVec.eq_of_toNat_eq (show s.rx1Delay.toNat = t.rx1Delay.toNat from congrArg Cfg.win1 hc)
  have b14 := BitVec.eq_of_toNat_eq (show s.rx2Delay.toNat = t.rx2Delay.toNat from congrArg Cfg.win2 hc)
  have b15 := h1.appKey.symm.trans h2.appKey
  have b16 := Vector.toList_inj.mp (h1.devEui.symm.trans h2.devEui)
  have b17 := Vector.toList_inj.mp (h1.appEui.symm.trans h2.appEui)
  have b18 := BitVec.eq_of_toNat_eq (h1.nonce.symm.trans h2.nonce)
  clear hc h1 h2 hi hj
  cases t
  simp only at *
  subst hsess hmac hadr hdel b1 b2 b3 b4 b5 b6 b7 b8 b9 b10 b11 b12 b13 b14 b15 b16 b17 b18 hp
  unfold mrk put
  simp only
  rw [← hchan]

theorem ViewOf.unique {v w : View} {s : St} (h : ViewOf v s) (g : ViewOf w s) : v = w := by
  cases v; cases w
  simp only [View.mk.injEq]
  exact ⟨h.joined.trans g.joined.symm, h.addr.trans g.addr.symm, h.up.trans g.up.symm, h.nwk.trans g.nwk.symm,
    h.app.trans g.app.symm, h.appKey.trans g.appKey.symm, h.devEui.trans g.devEui.symm, h.appEui.trans g.appEui.symm,
    h.nonce.trans g.nonce.symm⟩

/-- The converse of `state_eq`, for concrete histories. -/
theorem observed_eq {log1 log2 : List Item} {s t : St} (h1 : Hist E log1 s) (h2 : Hist E log2 t)
    (he : t = mrk t.chan.maxCount (put t.frame t.pp s)) : view E log1 = view E log2 ∧ config E log1 = config E log2 := by
  have hv : ViewOf (view E log1) t := by
    obtain ⟨a1, a2, a3, a4, a5, a6, a7, a8, a9⟩ := view_hist h1
    rw [he]
    exact ⟨a1, a2, a3, a4, a5, a6, a7, a8, a9⟩
  refine ⟨hv.unique (view_hist h2), ?_⟩
  rw [← config_hist h1, ← config_hist h2, he]
  rfl

/-- Indistinguishable states. -/
def Twin (s t : St) : Prop := ∃ u m, Like s u ∧ t = mrk m u

theorem Like.inv {s t : St} (h : Like s t) (hi : Inv s) : Inv t := by
  obtain ⟨he, hl, -, -⟩ := h
  rw [he]
  exact { hi with frame := by rw [← hi.frame, ← hl]; rfl, chan := hi.chan, queue := hi.queue }

theorem OpLike.valid {a b : Op} (h : OpLike a b) (hv : a.Valid) : b.Valid := by cases h <;> exact hv

theorem OpLike.blank {a b : Op} (h : OpLike a b) : blank b = blank a := by cases h <;> rfl

theorem step_twin {s t s' : St} {op : Op} {r : Ret} {ev : List Ev} (hi : Inv s) (hj : Inv t) (h : Twin s t)
    (hne : ∀ m o, op = .event m o → o.rxData ≠ []) (hs : step E s op = .ok (r, s', ev)) :
    ∃ op' t', OpLike op op' ∧ step E t op' = .ok (r, t', ev) ∧ Twin s' t' := by
  obtain ⟨u, m, hl, rfl⟩ := h
  obtain ⟨u', k1, k2⟩ := step_like hi hl (fun m o ho => .inl (hne m o ho)) hs
  obtain ⟨op', m', k3, k4⟩ := step_mrk (m := m) (hl.inv hi) hj.chan k1
  exact ⟨op', _, k3, k4, u', m', k2, rfl⟩

theorem Seg.hist {log seg : List Item} {s s' : St} (h : Hist E log s) (g : Seg E s seg s') : Hist E (log ++ seg) s' := by
  induction g with
  | nil => rw [List.append_nil]; exact h
  | snoc g hv hs ih => rw [← List.append_assoc]; exact .snoc ih hv hs

theorem seg_twin {log1 log2 : List Item} {s1 s2 : St} (h1 : Hist E log1 s1) (h2 : Hist E log2 s2) (ht : Twin s1 s2) {seg : List Item}
    {s1' : St} (hs : Seg E s1 seg s1') (hne : ∀ it ∈ seg, nonEmpty it) :
    ∃ seg2 s2', Seg E s2 seg2 s2' ∧ seg2.map seen = seg.map seen ∧ Twin s1' s2' := by
  induction hs with
  | nil => exact ⟨[], s2, .nil, rfl, ht⟩
  | @snoc log sa sb op r ev g hv hs ih =>
    obtain ⟨seg2, t, k1, k2, k3⟩ := ih fun it hit => hne it (List.mem_append_left _ hit)
    obtain ⟨op', t', k4, k5, k6⟩ := step_twin (Hist.inv (Seg.hist h1 g)) (Hist.inv (Seg.hist h2 k1)) k3
      (hne ⟨sa, op, r, ev, sb⟩ (List.mem_append_right _ (List.mem_singleton_self _))) hs
    refine ⟨_, t', .snoc k1 (k4.valid hv) k5, ?_, k6⟩
    rw [List.map_append, List.map_append, k2]
    simp only [List.map_cons, List.map_nil, seen, k4.blank]

end Uwan
