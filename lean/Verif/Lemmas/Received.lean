import Verif.Lemmas.Downlink

/-! Received data frames: what rejected ones leave, what accepted ones execute. -/

namespace Uwan
open Spec

variable {E : Env} {log : List Item} {it : Item} {s' : St}

theorem mark_ack (H : DHdr) (s : St) :
    H.mark s = { s with session := { s.session with ackRequired := s.session.ackRequired || H.mtype == 5 } } := by
  unfold DHdr.mark markAck
  split
  · next h => rw [h]; simp
  · next h => rw [show (H.mtype == 5) = false by simpa using h]; simp

theorem macHandleCommands_nil (bat : Nat → Byte) (s : St) : macHandleCommands bat s [] = .ok (s, []) := rfl

/-- What a frame with a wrong MIC leaves. -/
theorem DataCase.wrongMic {bat : Nat → Byte} {s : St} {pkt : DlPkt} {buf : Bytes} {s2 : St} {p : DlPkt} {ev : List Ev}
    (hc : DataCase E bat s pkt buf .msgMic s2 p ev) :
    ∃ d a, MacFrame { s with snr := pkt.snr, session := { s.session with fCntDown := d, ackRequired := a } } s2 ∧
      ∀ f, parse buf = some f → f.fOpts = [] →
        s2 = { s with snr := pkt.snr, session := { s.session with fCntDown := d, ackRequired := a } } := by
  cases hc with
  | mic H d s2 ev1 hb hl ht ha hf hd hm hi hfr hmic =>
    refine ⟨d, s.session.ackRequired || H.mtype == 5, ?_, ?_⟩
    · unfold DHdr.count at hfr
      rw [mark_ack] at hfr
      exact hfr
    · intro f hp hfo
      subst hb
      obtain ⟨f', hp', h1, h2, h3, h4, h5, h6, h7⟩ := H.parse hl hf
      rw [hp] at hp'
      cases hp'
      rw [← h4, hfo, macHandleCommands_nil] at hm
      simp only [Except.ok.injEq, Prod.mk.injEq] at hm
      rw [← hm.1]
      unfold DHdr.count
      rw [mark_ack]

/-- What a frame rejected before the MIC check leaves. -/
theorem DataCase.early {bat : Nat → Byte} {s : St} {pkt : DlPkt} {buf : Bytes} {s2 : St} {p : DlPkt} {e : Err} {ev : List Ev}
    (hc : DataCase E bat s pkt buf e s2 p ev) (h1 : e ≠ .no) (h2 : e ≠ .msgMic) :
    s2 = { s with session := { s.session with ackRequired :=
      s.session.ackRequired || (isDataDown buf && leNat (buf.take 1) / 32 == 5) } } ∧ macCalls ev = [] := by
  have hty : ∀ H : DHdr, buf = H.bytes → 12 ≤ buf.length → H.Typed →
      (isDataDown buf && leNat (buf.take 1) / 32 == 5) = (H.mtype == 5) := by
    intro H hb hl ht
    subst hb
    have hm : leNat (H.bytes.take 1) = H.mhdr.toNat := by simp [DHdr.bytes, leNat]
    have h3 : H.mtype.toNat = H.mhdr.toNat / 32 := by
      unfold DHdr.mtype
      have hlt : H.mhdr.toNat < 256 := H.mhdr.isLt
      rw [BitVec.toNat_and, BitVec.toNat_ushiftRight, Nat.shiftRight_eq_div_pow]
      show (H.mhdr.toNat / 32) &&& 7 = _
      rw [show (7 : Nat) = 2 ^ 3 - 1 from rfl, Nat.and_two_pow_sub_one_eq_mod, Nat.mod_eq_of_lt (by omega)]
    have h0 : H.mhdr.toNat % 4 = 0 := by
      have := congrArg BitVec.toNat ht.1
      rw [BitVec.toNat_and] at this
      change H.mhdr.toNat &&& 3 = 0 at this
      rwa [show (3 : Nat) = 2 ^ 2 - 1 from rfl, Nat.and_two_pow_sub_one_eq_mod] at this
    have h5 : (H.mtype == 5) = (H.mhdr.toNat / 32 == 5) := by
      rw [← h3]
      rw [Bool.eq_iff_iff, beq_iff_eq, beq_iff_eq, ← BitVec.toNat_inj]
      rfl
    unfold isDataDown
    rw [hm, h0, h5]
    have : H.mhdr.toNat / 32 = 3 ∨ H.mhdr.toNat / 32 = 5 := by
      rw [← h3]
      rcases ht.2 with h | h <;> rw [h]
      · exact .inl rfl
      · exact .inr rfl
    rcases this with h | h <;> simp [h, hl]
  have hsm : ∀ b, macCalls (shiftMark b) = [] := by
    intro b
    unfold shiftMark
    split <;> rfl
  have hno : ∀ {P : Prop}, isDataDown buf = false → (s = s) = P → s = { s with session := { s.session with ackRequired :=
      s.session.ackRequired || (isDataDown buf && leNat (buf.take 1) / 32 == 5) } } := by
    intro P h _
    rw [h]; simp
  cases hc with
  | short h => exact ⟨hno (P := s = s) (by unfold isDataDown; rw [decide_eq_false (by omega)]; rfl) rfl, rfl⟩
  | mhdr H hb hl h =>
    refine ⟨hno (P := s = s) ?_ rfl, rfl⟩
    cases hd : isDataDown buf with
    | false => rfl
    | true =>
      refine absurd ?_ h
      subst hb
      have hm : leNat (H.bytes.take 1) = H.mhdr.toNat := by simp [DHdr.bytes, leNat]
      unfold isDataDown at hd
      rw [hm] at hd
      simp only [Bool.and_eq_true, Bool.or_eq_true, beq_iff_eq, decide_eq_true_eq] at hd
      have hlt : H.mhdr.toNat < 256 := H.mhdr.isLt
      have h3 : H.mtype.toNat = H.mhdr.toNat / 32 := by
        unfold DHdr.mtype
        rw [BitVec.toNat_and, BitVec.toNat_ushiftRight, Nat.shiftRight_eq_div_pow]
        show (H.mhdr.toNat / 32) &&& 7 = _
        rw [show (7 : Nat) = 2 ^ 3 - 1 from rfl, Nat.and_two_pow_sub_one_eq_mod, Nat.mod_eq_of_lt (by omega)]
      refine ⟨?_, ?_⟩
      · apply BitVec.eq_of_toNat_eq
        rw [BitVec.toNat_and]
        show H.mhdr.toNat &&& 3 = 0
        rw [show (3 : Nat) = 2 ^ 2 - 1 from rfl, Nat.and_two_pow_sub_one_eq_mod]
        exact hd.1.2
      · rcases hd.2 with h | h
        · exact .inl (BitVec.eq_of_toNat_eq (by rw [h3, h]; rfl))
        · exact .inr (BitVec.eq_of_toNat_eq (by rw [h3, h]; rfl))
  | addr H hb hl ht h => rw [hty H hb hl ht]; exact ⟨mark_ack H s, hsm _⟩
  | fopts H hb hl ht ha h => rw [hty H hb hl ht]; exact ⟨mark_ack H s, hsm _⟩
  | fcnt H hb hl ht ha hf h => rw [hty H hb hl ht]; exact ⟨mark_ack H s, hsm _⟩
  | mic => exact absurd rfl h2
  | good => exact absurd rfl h1

/-! ### MAC calls -/

theorem macCalls_append (a b : List Ev) : macCalls (a ++ b) = macCalls a ++ macCalls b := List.filter_append ..

theorem macCalls_vis (l : List Ev) : macCalls (vis l) = macCalls l := by
  unfold macCalls vis
  rw [List.filter_filter]
  apply List.filter_congr
  intro x _
  cases x <;> rfl

theorem exec_macCalls (c : Cfg) (bat : Byte) (cmd : Cmd) : macCalls (c.exec bat cmd).2.2 = (c.exec bat cmd).2.2 := by
  cases cmd <;> simp only [Cfg.exec] <;> first | rfl | (split <;> rfl)

theorem execAll_macCalls (bat : Nat → Byte) : ∀ (l : List (Cmd × Nat)) (c : Cfg),
    macCalls (c.execAll bat l).2 = (c.execAll bat l).2
  | [], _ => rfl
  | (cmd, n) :: l, c => by
    simp only [Cfg.execAll]
    split
    · simp only [macCalls_append, exec_macCalls, execAll_macCalls bat l]
    · exact exec_macCalls ..

/-- Calls made by the crypto functions are no MAC calls. -/
theorem calcMic_macCalls (ss : Session) (msg : Bytes) (key : Block) (dir : Byte) (b : Bool) :
    macCalls (calcMic E ss msg key dir b).2 = [] := by
  cases b <;> rfl

theorem encLoop_macCalls (aes : Block → Block) (dir : Byte) (addr fcnt : U32) :
    ∀ n i l, macCalls (encLoop aes dir addr fcnt n i l).2 = []
  | _, _, [] => by simp [encLoop, macCalls]
  | 0, _, _ :: _ => rfl
  | n + 1, i, b :: l => encLoop_macCalls aes dir addr fcnt n (i + 1) ((b :: l).drop 16)

theorem encryptPayload_macCalls (ss : Session) (buf : Bytes) (key : Block) (dir : Byte) :
    macCalls (encryptPayload E ss buf key dir).2 = [] := by
  unfold encryptPayload
  simp only
  show macCalls ([.aesNew key] ++ _ ++ [.aesDel]) = []
  rw [macCalls_append, macCalls_append, encLoop_macCalls]; rfl

theorem shiftMark_macCalls (b : Byte) : macCalls (shiftMark b) = [] := by
  unfold shiftMark
  split <;> rfl

theorem plain_macCalls (H : DHdr) (ss : Session) (d : U32) : macCalls (H.plain E ss d).2 = [] := by
  unfold DHdr.plain
  split
  · rfl
  · rfl
  · exact encryptPayload_macCalls ..

/-- The commands a counted frame executes. -/
theorem DataCase.calls {bat : Nat → Byte} {s : St} {pkt : DlPkt} {buf : Bytes} {s2 : St} {p : DlPkt} {e : Err} {ev : List Ev}
    (h : Inv s) (hr : s.region.isSome = true) (hc : DataCase E bat s pkt buf e s2 p ev) (he : e = .no ∨ e = .msgMic) :
    ∃ f, parse buf = some f ∧ macCalls ev = (((cfgOf s).arrived buf f pkt.snr).execBytes bat f.fOpts).2 := by
  have key : ∀ (H : DHdr) (d : U32) (s2 : St) (ev1 : List Ev), buf = H.bytes → 12 ≤ buf.length → H.Typed → 12 + H.fo ≤ buf.length →
      nextFCntDown s.session.fCntDown H.fcnt = some d → macHandleCommands bat (H.count s d pkt.snr) H.fopts = .ok (s2, ev1) →
      ∃ f, parse buf = some f ∧ macCalls ev1 = (((cfgOf s).arrived buf f pkt.snr).execBytes bat f.fOpts).2 := by
    intro H d s2 ev1 hb hl ht hf hd hm
    subst hb
    obtain ⟨f, hp, h1, h2, h3, h4, h5, h6, h7⟩ := H.parse hl hf
    refine ⟨f, hp, ?_⟩
    have hcm := (cfgOf_cmds bat (h.count H d pkt.snr) (by show (H.mark s).region.isSome = true; rw [mark_region]; exact hr) hm).2
    have hnx : nextDown (cfgOf s).down f.fCnt = some d.toNat := by
      rw [h3]; show nextDown s.session.fCntDown.toNat _ = _
      rw [nextDown_eq, hd]; rfl
    have ha : (cfgOf s).arrived H.bytes f pkt.snr = cfgOf (H.count s d pkt.snr) := by
      rw [cfgOf_count H s d pkt.snr hl ht]
      unfold Cfg.arrived
      rw [hnx]; rfl
    rw [ha, h4]
    unfold Cfg.execBytes
    rw [← execAll_macCalls]
    show _ = macCalls ((cfgOf (H.count s d pkt.snr)).execBytes bat H.fopts).2
    rw [← hcm, macCalls_vis]
  cases hc with
  | mic H d s2 ev1 hb hl ht ha hf hd hm hi hfr hmic =>
    obtain ⟨f, hp, hk⟩ := key H d s2 ev1 hb hl ht hf hd hm
    refine ⟨f, hp, ?_⟩
    rw [macCalls_append, macCalls_append, shiftMark_macCalls, hk, show (H.mic E s.session d).2 = _ from rfl]
    unfold DHdr.mic
    rw [calcMic_macCalls]; simp
  | good H d s2 ev1 fr hb hl ht ha hf hd hm hi hfr hmic hlen =>
    obtain ⟨f, hp, hk⟩ := key H d s2 ev1 hb hl ht hf hd hm
    refine ⟨f, hp, ?_⟩
    rw [macCalls_append, macCalls_append, macCalls_append, shiftMark_macCalls, hk, plain_macCalls]
    unfold DHdr.mic
    rw [calcMic_macCalls]; simp
  | _ => rcases he with he | he <;> exact absurd he (by decide)

/-- A frame received in a data exchange whose counter was taken over: what its FOpts did. -/
theorem Hist.executed (h : Hist E (log ++ [it]) s') {l : Bytes} (ho : outcome log it = .packet l)
    (hj : (config E log).joining = false)
    (hv : verdict E (view E log) (config E log).down l = .no ∨ verdict E (view E log) (config E log).down l = .msgMic) :
    ∃ m o f, it.op = .event m o ∧ parse l = some f ∧
      macCalls it.ev = (((config E log).arrived l f o.snr).execBytes o.bat f.fOpts).2 ∧
      cfgOf s' = { (((config E log).arrived l f o.snr).execBytes o.bat f.fOpts).1 with
        joining := false
        cnt := if verdict E (view E log) (config E log).down l = .no then 0 else (config E log).cnt } := by
  obtain ⟨s, m, o, mt, G, s2, ev0, p, ev, R⟩ := h.gotData ho hj
  have hinv : Inv (rxSt o { s with phase := .idle }) := { R.inv with region := fun _ => R.region, frame := rxSt_frame o R.inv.frame }
  have hc := R.data
  rw [← G.bytes] at hc
  obtain ⟨f, hp, hk⟩ := hc.calls hinv R.region hv
  have hc0 : (cfgOf (rxSt o { s with phase := .idle })) = config E log := by rw [← config_hist R.hist]; rfl
  rw [hc0] at hk
  refine ⟨m, o, f, G.op, hp, ?_, ?_⟩
  · rw [R.ev, macCalls_append, macCalls_append, macCalls_append, hk]
    have e0 : macCalls ev0 = [] := by rcases R.pre with h | h <;> rw [h] <;> rfl
    rw [e0]
    show [] ++ [] ++ _ ++ [] = _
    simp only [List.nil_append, List.append_nil]
    rfl
  · rw [G.cfg]
    unfold Cfg.receive
    rw [if_pos hv, hp]
    simp only
    have hcnt := (execBytes_frame o.bat f.fOpts ((config E log).arrived l f o.snr)).cnt
    have hc2 : ((config E log).arrived l f o.snr).cnt = (config E log).cnt := by
      unfold Cfg.arrived Cfg.noteAck; split <;> rfl
    rw [hc2] at hcnt
    by_cases hn : verdict E (view E log) (config E log).down l = .no
    · rw [if_pos hn, if_pos hn]; rfl
    · rw [if_neg hn, if_neg hn, ← hcnt]; rfl

/-! ### Counter and keys over operations that accept nothing -/

/-- Nothing was taken over: no session started, and no frame accepted or found to have a wrong MIC. -/
theorem kept_seg {seg : List Item} : ∀ {s' : St}, Hist E (log ++ seg) s' → (∀ x ∈ seg, newSession x = false) →
    (∀ x ∈ seg, ∀ r ∈ results x.ev, r.1 ≠ .no ∧ r.1 ≠ .msgMic) →
    (view E (log ++ seg)).nwk = (view E log).nwk ∧ (view E (log ++ seg)).app = (view E log).app ∧
    (view E (log ++ seg)).addr = (view E log).addr ∧ (config E (log ++ seg)).down = (config E log).down := by
  refine snoc_induction (P := fun seg => ∀ {s' : St}, Hist E (log ++ seg) s' → (∀ x ∈ seg, newSession x = false) →
    (∀ x ∈ seg, ∀ r ∈ results x.ev, r.1 ≠ .no ∧ r.1 ≠ .msgMic) →
    (view E (log ++ seg)).nwk = (view E log).nwk ∧ (view E (log ++ seg)).app = (view E log).app ∧
    (view E (log ++ seg)).addr = (view E log).addr ∧ (config E (log ++ seg)).down = (config E log).down) ?_ ?_ seg
  · intro s' h _ _
    simp only [List.append_nil]
    exact ⟨trivial, trivial, trivial, trivial⟩
  · intro seg x ih s' h hn hr
    rw [← List.append_assoc] at h ⊢
    obtain ⟨s1, h1, -⟩ := h.last
    obtain ⟨i1, i2, i3, i4⟩ := ih h1 (fun y hy => hn y (by simp [hy])) (fun y hy => hr y (by simp [hy]))
    obtain ⟨n1, n2, n3, n4⟩ := down_next h (hn x (by simp))
    refine ⟨n1.trans i1, n2.trans i2, n3.trans i3, ?_⟩
    rcases n4 with n4 | ⟨l, f, d, ho, hj, hp, hd, he⟩
    · rw [n4]; exact i4
    · obtain ⟨s, m, o, mt, G, -⟩ := h.gotData ho hj
      have hv := hr x (by simp) _ (by rw [G.results]; exact List.mem_singleton.mpr rfl)
      have : (config E (log ++ seg ++ [x])).down = (config E (log ++ seg)).down := by
        rw [show (config E (log ++ seg ++ [x])).down = (cfgOf s').down by rw [config_hist h], G.cfg]
        show ((config E (log ++ seg)).receive o l _).down = _
        rw [receive_down, if_neg (by rintro (h | h); exact hv.1 h; exact hv.2 h)]
      rw [this]; exact i4

/-- The check list, spelled out for acceptance: every condition holds. -/
theorem verdict_accepted (v : View) (down : Nat) (l : Bytes) :
    verdict E v down l = .no ↔ 12 ≤ l.length ∧ leNat (l.take 1) % 4 = 0 ∧ (leNat (l.take 1) / 32 = 3 ∨ leNat (l.take 1) / 32 = 5) ∧
      leNat ((l.drop 1).take 4) = v.addr ∧
      ∃ f d, parse l = some f ∧ nextDown down f.fCnt = some d ∧ f.mic = dataMic E v.nwk 1 v.addr d (signed l) := by
  unfold verdict
  by_cases h1 : l.length < 12
  · rw [if_pos h1]
    exact ⟨fun h => absurd h (by decide), fun h => by omega⟩
  rw [if_neg h1]
  by_cases h2 : isDataDown l = true
  rotate_left
  · rw [if_pos (by simp [h2])]
    refine ⟨fun h => absurd h (by decide), fun h => absurd ?_ h2⟩
    unfold isDataDown
    simp only [Bool.and_eq_true, Bool.or_eq_true, beq_iff_eq, decide_eq_true_eq]
    exact ⟨⟨h.1, h.2.1⟩, h.2.2.1⟩
  rw [if_neg (by simp [h2])]
  have h2' := h2
  unfold isDataDown at h2'
  simp only [Bool.and_eq_true, Bool.or_eq_true, beq_iff_eq, decide_eq_true_eq] at h2'
  obtain ⟨⟨k1, k2⟩, k3⟩ := h2'
  by_cases h3 : leNat ((l.drop 1).take 4) = v.addr
  rotate_left
  · rw [if_pos h3]
    exact ⟨fun h => absurd h (by decide), fun h => absurd h.2.2.2.1 h3⟩
  rw [if_neg (fun h => h h3)]
  cases hp : parse l with
  | none => exact ⟨fun h => by simp at h, fun ⟨_, _, _, _, f, d, hf, _⟩ => absurd hf (by simp)⟩
  | some f =>
    simp only
    cases hn : nextDown down f.fCnt with
    | none =>
      refine ⟨fun h => by simp at h, ?_⟩
      rintro ⟨_, _, _, _, f', d, hf, hd, _⟩
      cases hf
      rw [hn] at hd
      simp at hd
    | some d =>
      simp only
      by_cases hm : f.mic = dataMic E v.nwk 1 v.addr d (signed l)
      · rw [if_pos hm]
        exact ⟨fun _ => ⟨k1, k2, k3, h3, f, d, rfl, hn, hm⟩, fun _ => rfl⟩
      · rw [if_neg hm]
        refine ⟨fun h => absurd h (by decide), ?_⟩
        rintro ⟨_, _, _, _, f', d', hf, hd, hm'⟩
        cases hf
        rw [hn] at hd
        cases hd
        exact absurd hm' hm

/-- An accepted data downlink. -/
theorem Hist.taken (h : Hist E (log ++ [it]) s') {l : Bytes} (ho : outcome log it = .packet l) (hj : (config E log).joining = false)
    (hr : (results it.ev).map (·.1) = [.no]) :
    newSession it = false ∧ ∃ f, parse l = some f ∧ nextDown (config E log).down f.fCnt = some s'.session.fCntDown.toNat ∧
      f.mic = dataMic E (view E log).nwk 1 (view E log).addr s'.session.fCntDown.toNat (signed l) := by
  obtain ⟨s, m, o, mt, G, -⟩ := h.gotData ho hj
  rw [G.results] at hr
  simp only [List.map_cons, List.map_nil, List.cons.injEq, and_true] at hr
  refine ⟨?_, ?_⟩
  · have := joinReported_iff h G.op
    rw [hj, Bool.false_and] at this
    unfold newSession
    rw [G.op]
    exact this
  · obtain ⟨-, -, -, -, f, d, hp, hd, hm⟩ := (verdict_accepted _ _ _).mp hr
    have : s'.session.fCntDown.toNat = d := by
      show (cfgOf s').down = d
      rw [G.cfg]
      show ((config E log).receive o l _).down = d
      rw [receive_down, if_pos (.inl hr), hp]
      simp [hd]
    rw [this]
    exact ⟨f, hp, hd, hm⟩

theorem leBytes_inj {n a b : Nat} (ha : a < 256 ^ n) (hb : b < 256 ^ n) (h : leBytes n a = leBytes n b) : a = b := by
  have := congrArg leNat h
  rwa [leNat_leBytes, leNat_leBytes, Nat.mod_eq_of_lt ha, Nat.mod_eq_of_lt hb] at this

theorem bytesB0_inj {dir addr a b len : Nat} {m : Bytes} (ha : a < 2 ^ 32) (hb : b < 2 ^ 32)
    (h : bytesB0 dir addr a len ++ m = bytesB0 dir addr b len ++ m) : a = b := by
  have h1 := List.append_cancel_right h
  unfold bytesB0 at h1
  have h2 := List.append_cancel_right h1
  have h3 := List.append_cancel_left h2
  exact leBytes_inj (n := 4) ha hb h3

end Uwan
