import Verif.Lemmas.Config

/-! The observer's configuration agrees with the stack's state: downlinks, join-accepts and whole histories. -/

namespace Uwan
open Spec

variable {E : Env}

/-! ### Frame counter -/

theorem nextDown_eq (cur : U32) (f : U16) : nextDown cur.toNat f.toNat = (nextFCntDown cur f).map (·.toNat) := by
  have hc := cur.isLt
  have hf := f.isLt
  have hd : (f - cur.setWidth 16 : U16).toNat = (f.toNat + 65536 - cur.toNat % 65536) % 65536 := by
    rw [BitVec.toNat_sub, BitVec.toNat_setWidth]; congr 1; omega
  unfold nextDown nextFCntDown
  simp only
  by_cases h0 : cur = 0
  · subst h0
    simp
    omega
  have h0' : cur.toNat ≠ 0 := toNat_ne_zero.mpr h0
  rw [if_neg h0', if_neg h0]
  by_cases h1 : (f - cur.setWidth 16 : U16) = 0
  · have : (f.toNat + 65536 - cur.toNat % 65536) % 65536 = 0 := by rw [← hd, h1]; rfl
    rw [if_pos this, if_pos h1]; rfl
  have h1' : (f.toNat + 65536 - cur.toNat % 65536) % 65536 ≠ 0 := by
    rw [← hd]; intro e; exact h1 (BitVec.eq_of_toNat_eq e)
  rw [if_neg h1', if_neg h1, hd]
  by_cases h2 : (f.toNat + 65536 - cur.toNat % 65536) % 65536 ≤ 16384
  · rw [if_pos h2, if_pos h2]
    simp only [Option.map_some, BitVec.toNat_add, BitVec.toNat_setWidth, hd]
    rw [Nat.mod_eq_of_lt (a := (f.toNat + 65536 - cur.toNat % 65536) % 65536) (b := 2 ^ 32) (by omega)]
  · rw [if_neg h2, if_neg h2]
    have hm : (cur &&& 0xffff0000#32).toNat = cur.toNat / 65536 * 65536 := by
      have : cur &&& 0xffff0000#32 = (cur >>> 16) <<< 16 := by
        apply BitVec.eq_of_getLsbD_eq
        intro i hi
        simp only [BitVec.getLsbD_and, BitVec.getLsbD_shiftLeft, BitVec.getLsbD_ushiftRight]
        by_cases h : i < 16
        · have : (0xffff0000#32).getLsbD i = false := by
            have : ∀ i : Fin 16, (0xffff0000#32).getLsbD i = false := by decide
            exact this ⟨i, h⟩
          simp [this, h]
        · have : (0xffff0000#32).getLsbD i = true := by
            have : ∀ i : Fin 16, (0xffff0000#32).getLsbD (16 + i.val) = true := by decide
            have := this ⟨i - 16, by omega⟩
            simpa [show 16 + (i - 16) = i by omega] using this
          simp [this, h, hi, show 16 + (i - 16) = i by omega]
      rw [this]
      simp only [BitVec.toNat_shiftLeft, BitVec.toNat_ushiftRight, Nat.shiftRight_eq_div_pow, Nat.shiftLeft_eq]
      omega
    simp only [Option.map_some, BitVec.toNat_add, BitVec.toNat_setWidth]
    have e : (cur &&& (4294901760 : U32)).toNat = cur.toNat / 65536 * 65536 := hm
    rw [e]
    have e2 : (65536 : U32).toNat = 65536 := rfl
    rw [e2, Nat.mod_eq_of_lt (a := f.toNat) (by omega), Nat.mod_add_mod]

/-! ### Data downlinks -/

theorem mhdr_mtype (b : Byte) : ((b >>> 5) &&& 7).toNat = b.toNat / 32 := by
  have : ∀ b : Fin 256, (((⟨b⟩ : Byte) >>> 5) &&& 7).toNat = (⟨b⟩ : Byte).toNat / 32 := by decide +kernel
  exact this b.toFin

theorem mhdr_major (b : Byte) : (b &&& 3).toNat = b.toNat % 4 := by
  have : ∀ b : Fin 256, ((⟨b⟩ : Byte) &&& 3).toNat = (⟨b⟩ : Byte).toNat % 4 := by decide +kernel
  exact this b.toFin

theorem DHdr.isDataDown (H : DHdr) (hl : 12 ≤ H.bytes.length) : Spec.isDataDown H.bytes = true ↔ H.Typed := by
  have e : leNat (H.bytes.take 1) = H.mhdr.toNat := by simp [DHdr.bytes, leNat]
  unfold Spec.isDataDown DHdr.Typed DHdr.mtype
  rw [e]
  simp only [Bool.and_eq_true, Bool.or_eq_true, decide_eq_true_eq, beq_iff_eq, hl, true_and]
  rw [← BitVec.toNat_inj, ← BitVec.toNat_inj, ← BitVec.toNat_inj, mhdr_mtype, mhdr_major]
  rfl

theorem DHdr.addr_eq (H : DHdr) : leNat ((H.bytes.drop 1).take 4) = H.addr.toNat := by
  rw [DHdr.addr, or32_toNat]; simp [DHdr.bytes]

theorem DHdr.rest_split (H : DHdr) (hl : 12 ≤ H.bytes.length) (hf : 12 + H.fo ≤ H.bytes.length) :
    H.rest = H.fopts ++ H.tail ++ H.bytes.drop (H.bytes.length - 4) := by
  have hlen : H.bytes.length = H.rest.length + 8 := by simp [DHdr.bytes]
  have e : H.bytes.drop (H.bytes.length - 4) = H.rest.drop (H.rest.length - 4) := by
    rw [show H.bytes.length - 4 = (H.rest.length - 4) + 8 by omega]
    simp [DHdr.bytes]
  rw [e]
  unfold DHdr.fopts DHdr.tail
  have e2 : H.rest.drop (H.rest.length - 4) = (H.rest.drop H.fo).drop (H.rest.length - 4 - H.fo) := by
    rw [List.drop_drop]; congr 1; omega
  rw [e2, List.append_assoc, List.take_append_drop, List.take_append_drop]

theorem DHdr.fo_eq (H : DHdr) : H.fo = H.fctrl.toNat % 16 := byte_lo H.fctrl

theorem DHdr.parse (H : DHdr) (hl : 12 ≤ H.bytes.length) (hf : 12 + H.fo ≤ H.bytes.length) :
    ∃ f, Spec.parse H.bytes = some f ∧ f.mtype = H.mhdr.toNat / 32 ∧ f.devAddr = H.addr.toNat ∧ f.fCnt = H.fcnt.toNat ∧
      f.fOpts = H.fopts ∧ f.port = H.tail.head?.map (·.toNat) ∧ f.payload = H.tail.drop 1 ∧
      f.mic = H.bytes.drop (H.bytes.length - 4) := by
  have hlen : H.bytes.length = H.rest.length + 8 := by simp [DHdr.bytes]
  have h4 : (H.bytes.drop (H.bytes.length - 4)).length = 4 := by rw [List.length_drop]; omega
  have hfo : H.fctrl.toNat % 16 = H.fopts.length := by
    rw [← H.fo_eq, DHdr.fopts, List.length_take]; omega
  have key := parse_layout H.mhdr H.a0 H.a1 H.a2 H.a3 H.fctrl H.c0 H.c1 H.fopts H.tail _ hfo h4
  rw [← H.rest_split hl hf] at key
  refine ⟨_, key, rfl, ?_, ?_, rfl, rfl, rfl, rfl⟩
  · rw [DHdr.addr, or32_toNat]
  · rw [DHdr.fcnt, or16_toNat]

theorem DHdr.parse_none (H : DHdr) (hf : H.bytes.length < 12 + H.fo) : Spec.parse H.bytes = none := by
  unfold Spec.parse
  have e : leNat ((H.bytes.drop 5).take 1) = H.fctrl.toNat := by simp [DHdr.bytes, leNat]
  simp only [e]
  rw [if_pos (by rw [← H.fo_eq]; exact hf)]

theorem DHdr.micOk_iff (H : DHdr) (ss : Session) (d : U32) :
    H.MicOk E ss d ↔ H.bytes.drop (H.bytes.length - 4) =
      dataMic E ss.nwkSKey 1 ss.devAddr.toNat d.toNat (signed H.bytes) := by
  unfold DHdr.MicOk DHdr.mic
  rw [calcMic_eq, Session.cnt_down]
  rfl

theorem cfgOf_mark (H : DHdr) (s : St) (hl : 12 ≤ H.bytes.length) (ht : H.Typed) :
    cfgOf (H.mark s) = (cfgOf s).noteAck H.bytes := by
  have e : leNat (H.bytes.take 1) = H.mhdr.toNat := by simp [DHdr.bytes, leNat]
  unfold Cfg.noteAck DHdr.mark markAck
  rw [e]
  have hd := (H.isDataDown hl).mpr ht
  have hm : H.mtype = 5 ↔ H.mhdr.toNat / 32 = 5 := by
    unfold DHdr.mtype; rw [← BitVec.toNat_inj, mhdr_mtype]; rfl
  by_cases h5 : H.mtype = 5
  · rw [if_pos h5, if_pos ⟨hd, hm.mp h5⟩]; rfl
  · rw [if_neg h5, if_neg (fun h => h5 (hm.mpr h.2))]

theorem cfgOf_cmds (bat : Nat → Byte) {s s' : St} {l : Bytes} {ev : List Ev} (h : Inv s) (hr : s.region.isSome = true)
    (hm : macHandleCommands bat s l = .ok (s', ev)) :
    cfgOf s' = ((cfgOf s).execBytes bat l).1 ∧ vis ev = ((cfgOf s).execBytes bat l).2 :=
  macLoop_spec bat l.length l.length s s' l ev h hr (Nat.le_refl _) (Nat.le_refl _) hm

theorem cfgOf_count (H : DHdr) (s : St) (d : U32) (x : BitVec 8) (hl : 12 ≤ H.bytes.length) (ht : H.Typed) :
    cfgOf (H.count s d x) = { (cfgOf s).noteAck H.bytes with down := d.toNat, snr := x.toInt } := by
  rw [← cfgOf_mark H s hl ht]; rfl

theorem noteAck_down (c : Cfg) (l : Bytes) : (c.noteAck l).down = c.down := by
  unfold Cfg.noteAck; split <;> rfl

/-- The result and the effect on the configuration of a received data frame are those of the specification. -/
theorem DataCase.cfg {o : Oracle} {s : St} {pkt : DlPkt} {buf : Bytes} {e : Err} {s' : St} {p' : DlPkt} {ev : List Ev}
    {v : View} (h : Inv s) (hr : s.region.isSome = true) (hv : ViewOf v s) (hsnr : pkt.snr = o.snr)
    (hc : DataCase E o.bat s pkt buf e s' p' ev) :
    e = verdict E v (cfgOf s).down buf ∧ cfgOf s' = (cfgOf s).receive o buf e := by
  have hnot : ∀ {l : Bytes}, Spec.isDataDown l = false → (cfgOf s).noteAck l = cfgOf s := by
    intro l hl
    unfold Cfg.noteAck; rw [if_neg]; rw [hl]; simp
  cases hc with
  | short hs =>
    constructor
    · unfold verdict; rw [if_pos hs]
    · unfold Cfg.receive
      rw [if_neg (by decide), if_neg (by decide)]
      have : Spec.isDataDown buf = false := by
        unfold Spec.isDataDown
        rw [decide_eq_false (by omega)]; rfl
      rw [hnot this]
  | mhdr H hb hl ht =>
    subst hb
    have hd : Spec.isDataDown H.bytes = false := by
      cases hx : Spec.isDataDown H.bytes with
      | false => rfl
      | true => exact absurd ((H.isDataDown hl).mp hx) ht
    constructor
    · unfold verdict; rw [if_neg (by omega), if_pos (by rw [hd]; rfl)]
    · unfold Cfg.receive
      rw [if_neg (by decide), if_neg (by decide), hnot hd]
  | addr H hb hl ht ha =>
    subst hb
    have hd := (H.isDataDown hl).mpr ht
    constructor
    · unfold verdict
      rw [if_neg (by omega), if_neg (by rw [hd]; decide), if_pos]
      rw [H.addr_eq, hv.addr]
      intro e
      exact ha (BitVec.eq_of_toNat_eq e.symm)
    · unfold Cfg.receive
      rw [if_neg (by decide), if_neg (by decide), cfgOf_mark H s hl ht]
  | fopts H hb hl ht ha hf =>
    subst hb
    have hd := (H.isDataDown hl).mpr ht
    constructor
    · unfold verdict
      rw [if_neg (by omega), if_neg (by rw [hd]; decide), if_neg (by rw [H.addr_eq, hv.addr, ha]; simp), H.parse_none hf]
    · unfold Cfg.receive
      rw [if_neg (by decide), if_neg (by decide), cfgOf_mark H s hl ht]
  | fcnt H hb hl ht ha hf hn =>
    subst hb
    have hd := (H.isDataDown hl).mpr ht
    obtain ⟨f, hp, h1, h2, h3, h4, h5, h6, h7⟩ := H.parse hl hf
    constructor
    · unfold verdict
      rw [if_neg (by omega), if_neg (by rw [hd]; decide), if_neg (by rw [H.addr_eq, hv.addr, ha]; simp), hp]
      simp only
      have : nextDown (cfgOf s).down f.fCnt = none := by
        rw [h3]; show nextDown s.session.fCntDown.toNat _ = none
        rw [nextDown_eq, hn]; rfl
      rw [this]
    · unfold Cfg.receive
      rw [if_neg (by decide), if_neg (by decide), cfgOf_mark H s hl ht]
  | mic H d s2 ev1 hb hl ht ha hf hd hm hi hfr hmic =>
    subst hb
    have hdd := (H.isDataDown hl).mpr ht
    obtain ⟨f, hp, h1, h2, h3, h4, h5, h6, h7⟩ := H.parse hl hf
    have hnx : nextDown (cfgOf s).down f.fCnt = some d.toNat := by
      rw [h3]; show nextDown s.session.fCntDown.toNat _ = _
      rw [nextDown_eq, hd]; rfl
    constructor
    · unfold verdict
      rw [if_neg (by omega), if_neg (by rw [hdd]; decide), if_neg (by rw [H.addr_eq, hv.addr, ha]; simp), hp]
      simp only [hnx]
      rw [if_neg]
      rw [h7, hv.addr, hv.nwk]
      exact fun e => hmic ((H.micOk_iff _ _).mpr e)
    · have := (cfgOf_cmds o.bat (h.count H d pkt.snr) (by rw [(count_dl H s d pkt.snr).region]; exact hr) hm).1
      rw [this, cfgOf_count H s d _ hl ht]
      unfold Cfg.receive
      rw [if_pos (by decide), hp]
      simp only [reduceCtorEq, ↓reduceIte, hnx, h4, hsnr, Option.getD_some]
  | good H d s2 ev1 fr hb hl ht ha hf hd hm hi hfr hmic hlen =>
    subst hb
    have hdd := (H.isDataDown hl).mpr ht
    obtain ⟨f, hp, h1, h2, h3, h4, h5, h6, h7⟩ := H.parse hl hf
    have hnx : nextDown (cfgOf s).down f.fCnt = some d.toNat := by
      rw [h3]; show nextDown s.session.fCntDown.toNat _ = _
      rw [nextDown_eq, hd]; rfl
    constructor
    · unfold verdict
      rw [if_neg (by omega), if_neg (by rw [hdd]; decide), if_neg (by rw [H.addr_eq, hv.addr, ha]; simp), hp]
      simp only [hnx]
      rw [if_pos]
      rw [h7, hv.addr, hv.nwk]
      exact (H.micOk_iff _ _).mp hmic
    · have := (cfgOf_cmds o.bat (h.count H d pkt.snr) (by rw [(count_dl H s d pkt.snr).region]; exact hr) hm).1
      have e2 : cfgOf (adrHandleDownlink { s2 with frame := fr }) = { cfgOf s2 with cnt := 0 } := rfl
      rw [e2, this, cfgOf_count H s d _ hl ht]
      unfold Cfg.receive
      rw [if_pos (by decide), hp]
      simp only [↓reduceIte, hnx, h4, hsnr, Option.getD_some]

/-! ### Join-accepts -/

theorem joinRxParams_eq (s : St) (dl dly : Byte) :
    joinRxParams s dl dly =
      { s with
        rx1Offset := if isValidDr ((dl >>> 4) &&& 7).toNat then (dl >>> 4) &&& 7 else s.rx1Offset
        rx2Dr := if isValidDr (dl &&& 0xf).toNat then (dl &&& 0xf).toNat else s.rx2Dr
        defaultRx1Delay :=
          BitVec.ofNat 32 ((if dly &&& 0xf = 0 then 1 else dly &&& 0xf : Byte).toNat * 1000) } := by
  have key : ∀ (p q : Bool) (o : Byte) (r : Nat) (d : U32),
      (let s1 := if p then { s with rx1Offset := o } else s
       let s2 := if q then { s1 with rx2Dr := r } else s1
       { s2 with defaultRx1Delay := d }) =
      { s with rx1Offset := if p then o else s.rx1Offset, rx2Dr := if q then r else s.rx2Dr, defaultRx1Delay := d } := by
    intro p q
    cases p <;> cases q <;> intros <;> rfl
  exact key _ _ _ _ _

theorem cfgOf_joinRxParams (s : St) (dl dly : Byte) :
    cfgOf (joinRxParams s dl dly) =
      { cfgOf s with
        off := if dl.toNat / 16 % 8 < 6 then dl.toNat / 16 % 8 else (cfgOf s).off
        rx2Dr := if dl.toNat % 16 < 6 then dl.toNat % 16 else (cfgOf s).rx2Dr
        delay := max 1 (dly.toNat % 16) } := by
  have h1 : isValidDr ((dl >>> 4) &&& 7).toNat = decide (dl.toNat / 16 % 8 < 6) := by
    rw [byte_hi3, isValidDr_eq (by omega)]
  have h2 : isValidDr (dl &&& 0xf).toNat = decide (dl.toNat % 16 < 6) := by
    rw [byte_lo, isValidDr_eq (by omega)]
  have h3 : (BitVec.ofNat 32 ((if dly &&& 0xf = 0 then 1 else dly &&& 0xf : Byte).toNat * 1000)).toNat / 1000 =
      max 1 (dly.toNat % 16) := by
    have : ∀ b : Fin 256, (BitVec.ofNat 32 ((if (⟨b⟩ : Byte) &&& 0xf = 0 then 1 else (⟨b⟩ : Byte) &&& 0xf : Byte).toNat *
        1000)).toNat / 1000 = max 1 ((⟨b⟩ : Byte).toNat % 16) := by decide +kernel
    exact this dly.toFin
  rw [joinRxParams_eq, h1, h2]
  show { cfgOf s with
      off := (if decide (dl.toNat / 16 % 8 < 6) = true then (dl >>> 4) &&& 7 else s.rx1Offset).toNat
      rx2Dr := if decide (dl.toNat % 16 < 6) = true then (dl &&& 0xf).toNat else s.rx2Dr
      delay := (BitVec.ofNat 32 ((if dly &&& 0xf = 0 then 1 else dly &&& 0xf : Byte).toNat * 1000)).toNat / 1000 } = _
  have h4 : (if decide (dl.toNat / 16 % 8 < 6) = true then (dl >>> 4) &&& 7 else s.rx1Offset).toNat =
      if dl.toNat / 16 % 8 < 6 then dl.toNat / 16 % 8 else s.rx1Offset.toNat := by
    by_cases h : dl.toNat / 16 % 8 < 6
    · rw [if_pos (decide_eq_true h), if_pos h, byte_hi3]
    · rw [if_neg (by simpa using h), if_neg h]
  have h5 : (if decide (dl.toNat % 16 < 6) = true then (dl &&& 0xf).toNat else s.rx2Dr) =
      if dl.toNat % 16 < 6 then dl.toNat % 16 else s.rx2Dr := by
    by_cases h : dl.toNat % 16 < 6
    · rw [if_pos (decide_eq_true h), if_pos h, byte_lo]
    · rw [if_neg (by simpa using h), if_neg h]
  rw [h3, h4, h5]
  rfl

/-- The configuration after the first `n` entries of a CFList. -/
theorem cfgOf_cflistLoop (first : Nat) (hf : first ≤ 3) : ∀ (n i : Nat) (l : Bytes) (s : St) (c' : Chan), i + n ≤ 5 →
    3 * n ≤ l.length → cflistLoop first n i l s.chan = .ok c' →
    cfgOf { s with chan := c' } =
      (List.range n).foldl (fun c k => c.cfEntry (first + i + k) (leNat ((l.drop (3 * k)).take 3))) (cfgOf s) := by
  intro n
  induction n with
  | zero =>
    intro i l s c' _ _ h
    simp only [cflistLoop, Except.ok.injEq] at h
    subst h; rfl
  | succ n ih =>
    intro i l s c' hi hl h
    match l, hl with
    | x :: y :: z :: l, hl =>
      simp only [cflistLoop] at h
      have hm : (i + first) % 256 = first + i := by omega
      rw [hm] at h
      have h' := ih (i + 1) l { s with chan := if or24 x y z = 0 then (enableChannel s.chan (first + i) false).2
          else (setChannel s.chan (first + i) (or24 x y z * 100)).2 } c' (by omega) (by simp at hl; omega) h
      have e0 : cfgOf { s with chan := if or24 x y z = 0 then (enableChannel s.chan (first + i) false).2
          else (setChannel s.chan (first + i) (or24 x y z * 100)).2 } =
          (cfgOf s).cfEntry (first + i) (leNat [x, y, z]) := by
        unfold Cfg.cfEntry
        by_cases hz : or24 x y z = 0
        · have : leNat [x, y, z] = 0 := by rw [← or24_toNat, hz]; rfl
          rw [if_pos hz, if_pos this, cfgOf_enable]
        · have : leNat [x, y, z] ≠ 0 := by rw [← or24_toNat]; exact toNat_ne_zero.mpr hz
          rw [if_neg hz, if_neg this, cfgOf_setChannel, or24_100]
      rw [e0] at h'
      rw [List.range_succ_eq_map, List.foldl_cons, List.foldl_map]
      simp only [Nat.mul_zero, List.drop_zero, Nat.add_zero, List.take_succ_cons, List.take_zero]
      refine Eq.trans h' ?_
      congr 1
      funext c k
      rw [show first + (i + 1) + k = first + i + (k + 1) by omega,
        show 3 * (k + 1) = 3 * k + 3 by omega, List.drop_succ_cons, List.drop_succ_cons, List.drop_succ_cons]
    | [], hl => simp at hl
    | [_], hl => simp at hl; omega
    | [_, _], hl => simp at hl; omega

theorem cfgOf_cflist (r : Region) (l : Bytes) (hl : 16 ≤ l.length) (s : St) (c' : Chan)
    (h : handleCflist r l s.chan = .ok c') : cfgOf { s with chan := c' } = (cfgOf s).cfList (cfFirst r) l := by
  unfold handleCflist at h
  have e : l[15]? = some l[15] := List.getElem?_eq_getElem (by omega)
  have e' : leNat ((l.drop 15).take 1) = l[15].toNat := by
    have : (l.drop 15).take 1 = [l[15]] := by
      rw [List.drop_eq_getElem_cons (by omega)]; rfl
    rw [this]; simp only [leNat, Nat.mul_zero, Nat.add_zero]
  simp only [e, orOob, bind, Except.bind] at h
  unfold Cfg.cfList
  by_cases h0 : l[15] = 0
  · rw [if_pos (by rw [e', h0]; rfl)]
    simp only [h0, ne_eq, not_true, ↓reduceIte] at h
    have hr : cfFirst r = r.cflistFirst := by cases r <;> rfl
    have := cfgOf_cflistLoop r.cflistFirst (by cases r <;> decide) 5 0 l s c' (by omega) (by omega) h
    rw [this, hr]; rfl
  · have : l[15].toNat ≠ 0 := fun x => h0 (BitVec.eq_of_toNat_eq x)
    rw [if_neg (by rw [e']; exact this)]
    simp only [ne_eq, h0, not_false_eq_true, ↓reduceIte, Except.ok.injEq] at h
    subst h; rfl

theorem JMsg.rest_length (J : JMsg) {key : Block} {blks : List Block} (hJ : joinDec E key blks = J.bytes) :
    J.rest.length + 12 = 16 * blks.length := by
  have := congrArg List.length hJ
  rw [joinDec_length] at this
  simp [JMsg.bytes] at this
  omega

/-- The settings of a join-accept apart from the CFList. -/
def Cfg.acc (c : Cfg) (l : Bytes) : Cfg :=
  { c with
    off := if leNat ((l.drop 10).take 1) / 16 % 8 < 6 then leNat ((l.drop 10).take 1) / 16 % 8 else c.off
    rx2Dr := if leNat ((l.drop 10).take 1) % 16 < 6 then leNat ((l.drop 10).take 1) % 16 else c.rx2Dr
    delay := max 1 (leNat ((l.drop 11).take 1) % 16)
    dr := c.defDr
    ack := false
    down := 0 }

theorem accept_eq (c : Cfg) (l : Bytes) (rg : Region) (h : c.region = some rg) :
    c.accept l = if l.length = 32 then (Cfg.acc c l).cfList (cfFirst rg) (l.drop 12) else Cfg.acc c l := by
  cases c with
  | mk region => simp only at h; subst h; rfl

/-- The configuration after an accepted join-accept. -/
theorem JMsg.done_cfg (J : JMsg) {s : St} {c : Chan} {blks : List Block} (hn : blks.length = 1 ∨ blks.length = 2)
    (hr : s.region.isSome = true) (hJ : joinDec E s.appKey blks = J.bytes)
    (hc : joinCflist s (blks.length = 2) J.rest = .ok c) :
    cfgOf (J.done E s c) = (cfgOf s).accept J.bytes := by
  obtain ⟨rg, hrg⟩ := Option.isSome_iff_exists.mp hr
  have hlen := J.rest_length hJ
  have e1 : leNat ((J.bytes.drop 10).take 1) = J.dl.toNat := by simp [JMsg.bytes, leNat]
  have e2 : leNat ((J.bytes.drop 11).take 1) = J.dly.toNat := by simp [JMsg.bytes, leNat]
  have e3 : J.bytes.length = J.rest.length + 12 := by simp [JMsg.bytes]
  have e4 : J.bytes.drop 12 = J.rest := by simp [JMsg.bytes]
  have e5 : (cfgOf s).region = some rg := hrg
  have h0 : cfgOf (setSession (joinRxParams s J.dl J.dly) (or32 J.a0 J.a1 J.a2 J.a3) 0 0 (J.nwk E s).1 (J.app E s).1) =
      Cfg.acc (cfgOf s) J.bytes := by
    have hd := (joinRxParams_dl s J.dl J.dly).defaultDr
    have : cfgOf (setSession (joinRxParams s J.dl J.dly) (or32 J.a0 J.a1 J.a2 J.a3) 0 0 (J.nwk E s).1 (J.app E s).1) =
        { cfgOf (joinRxParams s J.dl J.dly) with dr := (joinRxParams s J.dl J.dly).defaultDr, ack := false, down := 0 } := rfl
    rw [this, cfgOf_joinRxParams, hd]
    unfold Cfg.acc
    rw [e1, e2]
    rfl
  have hch := joinRxParams_chan s J.dl J.dly
  rw [accept_eq _ _ rg e5, e3, e4]
  unfold JMsg.done
  rcases hn with hn | hn
  · rw [if_neg (by omega)]
    rw [show decide (blks.length = 2) = false from by simp [hn]] at hc
    simp only [joinCflist, Bool.false_eq_true, ↓reduceIte, Except.ok.injEq] at hc
    subst hc
    have : cfgOf (setSession { joinRxParams s J.dl J.dly with chan := s.chan } (or32 J.a0 J.a1 J.a2 J.a3) 0 0 (J.nwk E s).1
      (J.app E s).1) = cfgOf (setSession (joinRxParams s J.dl J.dly) (or32 J.a0 J.a1 J.a2 J.a3) 0 0 (J.nwk E s).1
      (J.app E s).1) := by rw [← hch]
    rw [this, h0]
  · rw [if_pos (by omega)]
    unfold joinCflist at hc
    simp only [hn, decide_true, ↓reduceIte, hrg] at hc
    have := cfgOf_cflist rg J.rest (by omega)
      (setSession (joinRxParams s J.dl J.dly) (or32 J.a0 J.a1 J.a2 J.a3) 0 0 (J.nwk E s).1 (J.app E s).1) c
      (by show handleCflist rg J.rest (joinRxParams s J.dl J.dly).chan = _; rw [hch]; exact hc)
    rw [← h0]
    exact this

/-! ### Operations -/

/-- The result among the effects. -/
theorem report_shape {a q : List Ev} {e : Err} {m : Byte} {p : DlPkt} (ha : a = [.sleep] ∨ a = [.readPacket, .sleep])
    (hq : Quiet q) : report (a ++ q ++ [Ev.downlink e m p]) = some e := by
  unfold report
  rw [List.findSome?_append, List.findSome?_append]
  have h1 : ∀ (f : Ev → Option Err), (∀ x, x.quiet = true → f x = none) → q.findSome? f = none := by
    intro f hf
    rw [List.findSome?_eq_none_iff]
    exact fun x hx => hf x (hq.all x hx)
  rw [h1 _ (by intro x hx; cases x <;> first | rfl | exact Bool.noConfusion hx)]
  rcases ha with rfl | rfl <;> rfl

theorem report_quiet {q : List Ev} (hq : Quiet q) : report q = none := by
  unfold report
  rw [List.findSome?_eq_none_iff]
  intro x hx
  have := hq.all x hx
  cases x <;> first | rfl | exact Bool.noConfusion this

theorem report_cons {x : Ev} {l : List Ev} (h : ∀ e m p, x ≠ .downlink e m p) : report (x :: l) = report l := by
  unfold report
  cases x <;> first | rfl | exact absurd rfl (h _ _ _)

/-- What the observer does with the end of an exchange. -/
def Cfg.finish (E : Env) (v : View) (c : Cfg) (o : Oracle) (err : Err) : Cfg :=
  let c' :=
    if c.joining then if err = .no then c.accept (joinClear E v.appKey o.rxData) else c
    else c.receive o (o.rxData.take 255) err
  { c' with joining := false }

theorem Cfg.next_report (v : View) (c : Cfg) (it : Item) (m : Byte) (o : Oracle) (e : Err) (hop : it.op = .event m o)
    (h : report it.ev = some e) : c.next E v it = Cfg.finish E v c o e := by
  unfold Cfg.next Cfg.finish; rw [hop]; simp only [h]

theorem DlCase.cfg {o : Oracle} {s : St} {err : Err} {s' : St} {ev : List Ev} {v : View} (h : Inv s)
    (hr : s.region.isSome = true) (herr : err = .no ∨ err = .rxTimeout ∨ err = .rxCrc) (hv : ViewOf v s)
    (hc : DlCase E o s err s' ev) :
    ∃ e, report ev = some e ∧ cfgOf s' = Cfg.finish E v (cfgOf s) o e := by
  have hinv : Inv (rxSt o s) := h.frameUpd (rxSt_frame o h.frame)
  have h0 : ViewOf v (rxSt o s) := hv.same (by constructor <;> rfl)
  have hoff : ∀ t : St, cfgOf { t with joinState := false } = { cfgOf t with joining := false } := fun _ => rfl
  have hjs : (cfgOf s).joining = s.joinState := rfl
  have hrx : cfgOf (rxSt o s) = cfgOf s := rfl
  cases hc with
  | none he =>
    refine ⟨err, report_shape (a := [.sleep]) (q := []) (.inl rfl) Quiet.nil, ?_⟩
    unfold Cfg.finish
    rw [hoff]
    simp only [hjs]
    cases hj : s.joinState with
    | true => simp only [↓reduceIte, he]
    | false =>
      simp only [Bool.false_eq_true, ↓reduceIte]
      unfold Cfg.receive
      rcases herr with rfl | rfl | rfl
      · exact absurd rfl he
      · rfl
      · rfl
  | join e s1 p ev1 he hj hc =>
    refine ⟨e, report_shape (.inr rfl) hc.quiet, ?_⟩
    unfold Cfg.finish
    rw [hoff]
    simp only [hjs, hj, ↓reduceIte]
    cases hc with
    | len => rfl
    | mhdr => rfl
    | mic => rfl
    | good blks fr J c hb hn hlen hok hJ hc hci =>
      rw [if_pos rfl]
      have hl : (o.rxData.take 255).length < 255 := by
        rw [hb]
        rcases hn with hn | hn
        · match blks, hn with
          | [b], _ => simp
        · match blks, hn with
          | [b, c], _ => simp
      have hfull := take_255 rfl hl
      have hJ' : J.bytes = joinClear E v.appKey o.rxData := by
        rw [← hJ, hv.appKey]
        exact joinDec_eq _ _ hn _ (by rw [hfull]; exact hb)
      have := J.done_cfg (E := E) (s := { rxSt o s with frame := fr }) (c := c) hn hr hJ hc
      rw [this, hJ']
      rfl
  | data e s1 p ev1 he hj hc =>
    refine ⟨e, report_shape (.inr rfl) hc.quiet, ?_⟩
    unfold Cfg.finish
    rw [hoff]
    simp only [hjs, hj, Bool.false_eq_true, ↓reduceIte]
    have := (hc.cfg hinv hr h0 rfl).2
    rw [this]
    rfl

theorem cfgOf_sent (s : St) (h : Inv s) (d : Sf × Bw) (fr : Bytes) : cfgOf (sentSt s d fr) = (cfgOf s).sent := by
  have hcnt : (s.adr.ackCnt + 1).toNat = (s.adr.ackCnt.toNat + 1) % 2 ^ 32 := by rw [BitVec.toNat_add]; rfl
  obtain ⟨k, k1, k2, hk⟩ := h.delay
  have hw1 : s.defaultRx1Delay.toNat = 1000 * (s.defaultRx1Delay.toNat / 1000) := by
    rw [hk, BitVec.toNat_ofNat, Nat.mod_eq_of_lt (by omega)]; omega
  have hw2 : (s.defaultRx1Delay + 1000).toNat = 1000 * (s.defaultRx1Delay.toNat / 1000) + 1000 := by
    rw [BitVec.toNat_add, hk, BitVec.toNat_ofNat]
    show (k * 1000 % 2 ^ 32 + 1000) % 2 ^ 32 = _
    rw [Nat.mod_eq_of_lt (show k * 1000 < 2 ^ 32 by omega), Nat.mod_eq_of_lt (by omega)]
    omega
  unfold sentSt adrHandleUplink Cfg.sent
  simp only
  have e1 : (sentSt0 s d fr).adr = s.adr := rfl
  have e2 : (sentSt0 s d fr).session.dr = s.session.dr := rfl
  have e3 : (cfgOf s).dr = s.session.dr := rfl
  have e4 : (cfgOf s).limit = s.adr.ackLimit.toNat := rfl
  have e5 : (cfgOf s).adrDelay = s.adr.ackDelay.toNat := rfl
  have e6 : (cfgOf s).cnt = s.adr.ackCnt.toNat := rfl
  have e7 : (cfgOf s).delay = s.defaultRx1Delay.toNat / 1000 := rfl
  rw [e1, e2, e3, e4, e5, e6, e7, ← hw2, ← hw1, hcnt]
  by_cases hb : s.session.dr ≠ 0 ∧ (s.adr.ackCnt.toNat + 1) % 2 ^ 32 > s.adr.ackLimit.toNat + s.adr.ackDelay.toNat
  · have : (decide (s.session.dr ≠ 0) && decide (s.adr.ackLimit.toNat + s.adr.ackDelay.toNat <
        (s.adr.ackCnt.toNat + 1) % 2 ^ 32)) = true := by simp only [Bool.and_eq_true, decide_eq_true_eq]; exact hb
    rw [if_pos hb, this]
    rfl
  · have : (decide (s.session.dr ≠ 0) && decide (s.adr.ackLimit.toNat + s.adr.ackDelay.toNat <
        (s.adr.ackCnt.toNat + 1) % 2 ^ 32)) = false := by
      rw [Bool.eq_false_iff]; simp only [ne_eq, Bool.and_eq_true, decide_eq_true_eq]; exact hb
    rw [if_neg hb, this]
    simp only [Bool.false_eq_true, ↓reduceIte]
    rw [← hcnt]
    rfl

theorem cfgOf_setChannel2 (s : St) (i j : Nat) (f g : U32) :
    cfgOf { s with chan := (setChannel (setChannel s.chan i f).2 j g).2 } =
      ((cfgOf s).setChannel i f.toNat).setChannel j g.toNat := by
  have := cfgOf_setChannel { s with chan := (setChannel s.chan i f).2 } j g
  rw [cfgOf_setChannel s i f] at this
  exact this

theorem cfgOf_setChannel3 (s : St) (i j k : Nat) (f g h : U32) :
    cfgOf { s with chan := (setChannel (setChannel (setChannel s.chan i f).2 j g).2 k h).2 } =
      (((cfgOf s).setChannel i f.toNat).setChannel j g.toNat).setChannel k h.toNat := by
  have := cfgOf_setChannel { s with chan := (setChannel (setChannel s.chan i f).2 j g).2 } k h
  rw [cfgOf_setChannel2 s i j f g] at this
  exact this

theorem cfgOf_init (s : St) (r : Region) (v : View) (x : Ret) (ev : List Ev) (t : St) :
    cfgOf (uwanInit s r).1 = (cfgOf s).next E v ⟨s, .init r, x, ev, t⟩ := by
  have hon : chOn (channelsInit s.chan) = fun _ => false := by
    funext i; unfold chOn
    have : (channelsInit s.chan).mask.isSet i = false := Mask.isSet_zero i
    rw [this, Bool.and_false]
  have w0 : (1000 : U32).toNat / 1000 = 1 := by decide
  have w1 : (868100000 : U32).toNat = 868100000 := by decide
  have w2 : (868300000 : U32).toNat = 868300000 := by decide
  have w3 : (868500000 : U32).toNat = 868500000 := by decide
  have w4 : (868900000 : U32).toNat = 868900000 := by decide
  have w5 : (869100000 : U32).toNat = 869100000 := by decide
  rw [uwanInit_eq]
  cases r with
  | eu868 =>
    let s0 : St := { s with
      phase := .idle, region := some .eu868, session := .zero, mac := { s.mac with queue := [], saveDevTime := false }
      chan := channelsInit s.chan, rx1Offset := 0, defaultRx1Delay := 1000, rx2Freq := initRx2 .eu868, rx2Dr := 0
      pp := { s.pp with cr := .cr45, preambleLen := 8, crcOn := true, implicitHeader := false } }
    have h0 : cfgOf s0 = { cfgOf s with
        region := some .eu868, on := fun _ => false, off := 0, delay := 1, dr := 0, ack := false, down := 0, queue := []
        stamp := false, rx2Dr := 0, rx2Freq := 868100000 } := by rw [← hon, ← w0, ← w1]; rfl
    refine (cfgOf_setChannel3 s0 0 1 2 868100000 868300000 868500000).trans ?_
    rw [h0, w1, w2, w3]
    rfl
  | ru864 =>
    let s0 : St := { s with
      phase := .idle, region := some .ru864, session := .zero, mac := { s.mac with queue := [], saveDevTime := false }
      chan := channelsInit s.chan, rx1Offset := 0, defaultRx1Delay := 1000, rx2Freq := initRx2 .ru864, rx2Dr := 0
      pp := { s.pp with cr := .cr45, preambleLen := 8, crcOn := true, implicitHeader := false } }
    have h0 : cfgOf s0 = { cfgOf s with
        region := some .ru864, on := fun _ => false, off := 0, delay := 1, dr := 0, ack := false, down := 0, queue := []
        stamp := false, rx2Dr := 0, rx2Freq := 869100000 } := by rw [← hon, ← w0, ← w5]; rfl
    refine (cfgOf_setChannel2 s0 0 1 868900000 869100000).trans ?_
    rw [h0, w4, w5]
    rfl

theorem macOnTxComplete_cfg {m m' : Mac} {t : U32} {ev : List Ev} (h : macOnTxComplete m t = .ok (m', ev)) :
    m'.queue = m.queue ∧ m'.cbs = m.cbs ∧ m'.saveDevTime = false ∧
    m'.devTime = if m.saveDevTime && (m.cbs.map (·.getTime)).getD false then t else m.devTime := by
  unfold macOnTxComplete at h
  cases hs : m.saveDevTime with
  | false =>
    rw [hs] at h
    simp only [Bool.false_eq_true, ↓reduceIte, Except.ok.injEq, Prod.mk.injEq] at h
    obtain ⟨rfl, -⟩ := h
    exact ⟨rfl, rfl, hs, rfl⟩
  | true =>
    rw [hs] at h
    simp only [↓reduceIte] at h
    cases hc : m.cbs with
    | none => rw [hc] at h; simp at h
    | some x =>
      rw [hc] at h
      simp only at h
      cases hg : x.getTime <;> rw [hg] at h <;>
        simp only [Bool.false_eq_true, ↓reduceIte, Except.ok.injEq, Prod.mk.injEq] at h <;> obtain ⟨rfl, -⟩ := h <;>
        simp [hg]

/-- One operation. -/
theorem cfg_step {s s' : St} {v : View} {op : Op} {r : Ret} {ev : List Ev} (hi : Inv s) (hv : op.Valid)
    (h : ViewOf v s) (hs : step E s op = .ok (r, s', ev)) : cfgOf s' = (cfgOf s).next E v ⟨s, op, r, ev, s'⟩ := by
  cases op with
  | init rg =>
    simp only [step, Except.ok.injEq, Prod.mk.injEq] at hs
    obtain ⟨rfl, rfl, rfl⟩ := hs
    exact cfgOf_init ..
  | setOtaaKeys d a k =>
    simp only [step, Except.ok.injEq, Prod.mk.injEq] at hs
    obtain ⟨-, rfl, -⟩ := hs; rfl
  | setSession a u d n k =>
    simp only [step, Except.ok.injEq, Prod.mk.injEq] at hs
    obtain ⟨-, rfl, -⟩ := hs; rfl
  | enableChannel i en =>
    simp only [step, Except.ok.injEq, Prod.mk.injEq] at hs
    obtain ⟨-, rfl, -⟩ := hs; exact cfgOf_enable ..
  | setChannel i f =>
    simp only [step, Except.ok.injEq, Prod.mk.injEq] at hs
    obtain ⟨-, rfl, -⟩ := hs; exact cfgOf_setChannel ..
  | setRx2 f dr =>
    simp only [step, Except.ok.injEq, Prod.mk.injEq] at hs
    obtain ⟨-, rfl, -⟩ := hs
    unfold setRx2 Cfg.next
    rw [isValidDr_eq hv, isValidFrequency_eq]
    by_cases h1 : dr < 6 <;> cases h2 : inBand f.toNat <;> simp only [h1, h2, decide_true, decide_false, Bool.not_true,
      Bool.not_false, Bool.false_eq_true, ↓reduceIte, and_true, and_false]
    rfl
  | join r1 r2 =>
    obtain ⟨e, rfl, hc⟩ := step_join hi hs
    cases hc with
    | state => rfl
    | channel => rfl
    | sent f d => rfl
  | send p l c rnd =>
    obtain ⟨e, rfl, hc⟩ := step_send hi hs
    cases hc with
    | state => rfl
    | channel => rfl
    | len => rfl
    | sent f d =>
      rw [cfgOf_sent s hi]
      unfold Cfg.next
      simp only [↓reduceIte]
  | timer id =>
    obtain ⟨rfl, -⟩ := step_timer hs; rfl
  | event m o =>
    have hc := step_event hi hs
    have h0 : ViewOf v { s with phase := .idle } := h.same (by constructor <;> rfl)
    have hi0 : s.phase ≠ .notInit → Inv { s with phase := .idle } := fun hp => { hi with region := fun _ => hi.region hp }
    have herr : (if irqCrcError m then Err.rxCrc else .no) = .no ∨ (if irqCrcError m then Err.rxCrc else .no) = .rxTimeout ∨
        (if irqCrcError m then Err.rxCrc else .no) = .rxCrc := by split <;> simp
    cases hc with
    | ignore => rfl
    | txDone mm ev2 hp hm hmac =>
      obtain ⟨g1, g2, g3, g4⟩ := macOnTxComplete_cfg hmac
      have hrep : report ([.startTimer .rx1 s.rx1Delay, .startTimer .rx2 s.rx2Delay, .setup (rx1Pp s)] ++ ev2) = none :=
        (report_cons (by intros; simp)).trans ((report_cons (by intros; simp)).trans ((report_cons (by intros; simp)).trans
          (report_quiet (macOnTxComplete_quiet hmac))))
      unfold Cfg.next
      simp only [hrep]
      have ht : txEnded ([.startTimer .rx1 s.rx1Delay, .startTimer .rx2 s.rx2Delay, .setup (rx1Pp s)] ++ ev2) = true := rfl
      rw [if_pos ht]
      have e : cfgOf { s with phase := .rx1, pp := rx1Pp s, mac := mm } =
          { cfgOf s with queue := mm.queue, cbs := mm.cbs, stamp := mm.saveDevTime, devTime := mm.devTime.toNat } := rfl
      rw [e, g1, g2, g3, g4]
      have e2 : (if s.mac.saveDevTime && (s.mac.cbs.map (·.getTime)).getD false then o.devTime else s.mac.devTime).toNat =
          if s.mac.saveDevTime && (s.mac.cbs.map (·.getTime)).getD false then o.devTime.toNat else s.mac.devTime.toNat := by
        split <;> rfl
      rw [e2]
      rfl
    | rx1Timeout => rfl
    | rx1Done s1 ev1 hp ht hm hc =>
      obtain ⟨e, h1, h2⟩ := hc.cfg (hi0 (by rw [hp]; decide)) (hi.region (by rw [hp]; decide)) herr h0
      rw [Cfg.next_report v _ _ m o e rfl (by rw [← h1]; exact report_cons (by intros; simp))]
      exact h2
    | rx2Timeout _ _ hp hm hc =>
      obtain ⟨e, h1, h2⟩ := hc.cfg (hi0 (by rw [hp]; decide)) (hi.region (by rw [hp]; decide)) (.inr (.inl rfl)) h0
      rw [Cfg.next_report v _ _ m o e rfl h1]
      exact h2
    | rx2Done _ _ hp ht hm hc =>
      obtain ⟨e, h1, h2⟩ := hc.cfg (hi0 (by rw [hp]; decide)) (hi.region (by rw [hp]; decide)) herr h0
      rw [Cfg.next_report v _ _ m o e rfl h1]
      exact h2
  | setDr dr =>
    simp only [step, Except.ok.injEq, Prod.mk.injEq] at hs
    obtain ⟨-, rfl, -⟩ := hs
    unfold setDr Cfg.next
    rw [isValidDr_eq hv]
    by_cases h1 : dr < 6 <;> simp only [h1, decide_true, decide_false, Bool.false_eq_true, ↓reduceIte]
    rfl
  | setNbTrans n =>
    simp only [step, Except.ok.injEq, Prod.mk.injEq] at hs
    obtain ⟨-, rfl, -⟩ := hs
    unfold setNbTrans setNbTransInt Cfg.next
    by_cases h1 : 1 ≤ n.toNat ∧ n.toNat ≤ 15 <;> simp only [h1, and_self, Bool.false_eq_true, ↓reduceIte]
    rfl
  | setMaxEirp e =>
    simp only [step, Except.ok.injEq, Prod.mk.injEq] at hs
    obtain ⟨-, rfl, -⟩ := hs; rfl
  | setTxPower p =>
    simp only [step, Except.ok.injEq, Prod.mk.injEq] at hs
    obtain ⟨-, rfl, -⟩ := hs
    unfold setTxPower setTxPowerInt isValidTxPower Cfg.next
    by_cases h1 : p.toNat < 8 <;> simp only [h1, decide_true, decide_false, Bool.false_eq_true, ↓reduceIte]
    rfl
  | setRx1DrOffset o =>
    simp only [step, Except.ok.injEq, Prod.mk.injEq] at hs
    obtain ⟨-, rfl, -⟩ := hs
    unfold setRx1DrOffset Cfg.next
    rw [isValidDr_eq o.isLt]
    by_cases h1 : o.toNat < 6 <;> simp only [h1, decide_true, decide_false, Bool.false_eq_true, ↓reduceIte]
    rfl
  | setRx1Delay d =>
    simp only [step, Except.ok.injEq, Prod.mk.injEq] at hs
    obtain ⟨-, rfl, -⟩ := hs
    unfold setRx1Delay Cfg.next
    by_cases h1 : 1 ≤ d.toNat ∧ d.toNat ≤ 15 <;> simp only [h1, and_self, ↓reduceIte]
    have : (BitVec.ofNat 32 (d.toNat * 1000)).toNat / 1000 = d.toNat := by
      rw [BitVec.toNat_ofNat]; omega
    show { cfgOf s with delay := (BitVec.ofNat 32 (d.toNat * 1000)).toNat / 1000 } = _
    rw [this]
  | adrEnable en =>
    simp only [step, Except.ok.injEq, Prod.mk.injEq] at hs
    obtain ⟨-, rfl, -⟩ := hs; rfl
  | adrSetupAck l d =>
    simp only [step, Except.ok.injEq, Prod.mk.injEq] at hs
    obtain ⟨-, rfl, -⟩ := hs; rfl
  | macSetHandlers c =>
    simp only [step, Except.ok.injEq, Prod.mk.injEq] at hs
    obtain ⟨-, rfl, -⟩ := hs; rfl
  | linkCheckReq =>
    simp only [step, Except.ok.injEq, Prod.mk.injEq] at hs
    obtain ⟨-, rfl, -⟩ := hs
    exact (cfgOf_enqueue s hi.queue 2 []).2
  | deviceTimeReq =>
    simp only [step, Except.ok.injEq, Prod.mk.injEq] at hs
    obtain ⟨-, rfl, -⟩ := hs
    have := cfgOf_enqueue s hi.queue 13 []
    unfold Cfg.next
    simp only
    rw [← this.1, ← this.2]
    rfl
  | isJoined =>
    simp only [step, Except.ok.injEq, Prod.mk.injEq] at hs
    obtain ⟨-, rfl, -⟩ := hs; rfl
  | getMaxPayload =>
    simp only [step, Except.ok.injEq, Prod.mk.injEq] at hs
    obtain ⟨-, rfl, -⟩ := hs; rfl

theorem cfgOf_boot : cfgOf St.boot = Cfg.boot := by
  have h1 : chFreq St.boot.chan = fun _ => 0 := by
    funext i
    show (Chan.freqAt _ i).toNat = 0
    have : St.boot.chan.freqAt i = 0 := by
      unfold Chan.freqAt
      by_cases hi : i < 16
      · have : ∀ i : Fin 16, (St.boot.chan.freq[i.val]?.getD 0 : U32) = 0 := by decide
        exact this ⟨i, hi⟩
      · have : St.boot.chan.freq[i]? = none := Vector.getElem?_eq_none (by omega)
        rw [this]; rfl
    rw [this]; rfl
  have h2 : chOn St.boot.chan = fun _ => false := by
    funext i; unfold chOn
    have : St.boot.chan.mask.isSet i = false := Mask.isSet_zero i
    rw [this, Bool.and_false]
  show { Cfg.boot with freq := chFreq St.boot.chan, on := chOn St.boot.chan } = _
  rw [h1, h2]; rfl

theorem observe_snoc (log : List Item) (it : Item) :
    observe E (log ++ [it]) = ((observe E log).1.next E it, (observe E log).2.next E (observe E log).1 it) := by
  unfold observe; rw [List.foldl_append]; rfl

theorem observe_view (log : List Item) : (observe E log).1 = view E log := by
  have : ∀ (log : List Item) (x : View × Cfg),
      (log.foldl (fun x it => (x.1.next E it, x.2.next E x.1 it)) x).1 = log.foldl (fun v it => v.next E it) x.1 := by
    intro log
    induction log with
    | nil => intro x; rfl
    | cons it l ih => intro x; rw [List.foldl_cons, List.foldl_cons, ih]
  exact this log _

/-- The observer is right after every history. -/
theorem config_hist {log : List Item} {s : St} (h : Hist E log s) : cfgOf s = config E log := by
  induction h with
  | nil => exact cfgOf_boot
  | snoc h hv hs ih =>
    unfold config at ih ⊢
    rw [observe_snoc, ← ih, observe_view]
    exact cfg_step (Hist.inv h) hv (view_hist h) hs

/-- The configuration after one more operation. -/
theorem config_snoc (log : List Item) (it : Item) : config E (log ++ [it]) = (config E log).next E (view E log) it := by
  unfold config; rw [observe_snoc, observe_view]

theorem view_snoc (log : List Item) (it : Item) : view E (log ++ [it]) = (view E log).next E it := by
  unfold view; rw [List.foldl_append]; rfl

end Uwan
