import Verif.Lemmas.CodeReceive

/-! # evt_handler -/

namespace Uwan.C

theorem irq_bits (b : Byte) :
    (ofBits .i32 (bits (b.toNat : Int) &&& bits 1) : Int) = ((b &&& 1).toNat : Int) ∧ (ofBits .i32 (bits (b.toNat : Int) &&& bits 2) : Int) = ((b &&& 2).toNat : Int) ∧
    (ofBits .i32 (bits (b.toNat : Int) &&& bits 4) : Int) = ((b &&& 4).toNat : Int) ∧ (ofBits .i32 (bits (b.toNat : Int) &&& bits 8) : Int) = ((b &&& 8).toNat : Int) := by
  have h : ∀ b : Byte,
      (ofBits .i32 (bits (b.toNat : Int) &&& bits 1) : Int) = ((b &&& 1).toNat : Int) ∧ (ofBits .i32 (bits (b.toNat : Int) &&& bits 2) : Int) = ((b &&& 2).toNat : Int) ∧
      (ofBits .i32 (bits (b.toNat : Int) &&& bits 4) : Int) = ((b &&& 4).toNat : Int) ∧ (ofBits .i32 (bits (b.toNat : Int) &&& bits 8) : Int) = ((b &&& 8).toNat : Int) := by
    decide +kernel
  exact h b

theorem bit_ne {a : Byte} (h : (a != 0) = true) : ¬ (a.toNat : Int) = 0 := by
  intro h'
  have : a = 0 := BitVec.eq_of_toNat_eq (by simpa using h')
  subst this
  cases h

theorem bit_eq {a : Byte} (h : (a != 0) = false) : (a.toNat : Int) = 0 := by
  have : a = 0 := by simpa using h
  subst this
  rfl

section
variable (I : Input) (L k : Nat) (s : St) (x : Extra) (fs : List Objs) (w : World) (b : Byte)

theorem evt_off (h : s.phase = .notInit ∨ s.phase = .idle) : exec ⟨host I, call (host I) Src.prog L (k + 8), L⟩ Src.evt_handler.body ⟨enc s x, [("evt_mask", [byteVal b])] :: fs, w⟩ =
    .ok (.ret none, ⟨enc s x, [("evt_mask", [byteVal b])] :: fs, w⟩) := by
  unfold Src.evt_handler
  rcases h with h | h
  · have hn : ((Phase.num s.phase : Nat) : Int) = 0 := by rw [h]; rfl
    crun [hn]
  · have hn : ((Phase.num s.phase : Nat) : Int) = 1 := by rw [h]; rfl
    crun [hn]

theorem evt_none (h : s.phase = .tx ∧ irqTxDone b = false ∨ (s.phase = .rx1 ∨ s.phase = .rx2) ∧ irqRxTimeout b = false ∧ irqRxDone b = false) :
    exec ⟨host I, call (host I) Src.prog L (k + 8), L⟩ Src.evt_handler.body ⟨enc s x, [("evt_mask", [byteVal b])] :: fs, w⟩ =
    .ok (.next, ⟨enc s x, [("evt_mask", [byteVal b])] :: fs, w⟩) := by
  unfold Src.evt_handler
  obtain ⟨b1, b2, b4, b8⟩ := irq_bits b
  have hb := b.isLt
  rcases h with ⟨h, h'⟩ | ⟨h | h, h1, h2⟩
  · have hn : ((Phase.num s.phase : Nat) : Int) = 2 := by rw [h]; rfl
    have h4 := bit_eq h'
    crun [hn, b4, h4]
  · have hn : ((Phase.num s.phase : Nat) : Int) = 3 := by rw [h]; rfl
    have h1 := bit_eq h1
    have h2 := bit_eq h2
    crun [hn, b1, b2, h1, h2]
  · have hn : ((Phase.num s.phase : Nat) : Int) = 4 := by rw [h]; rfl
    have h1 := bit_eq h1
    have h2 := bit_eq h2
    crun [hn, b1, b2, h1, h2]

theorem evt_rx1_timeout (h : s.phase = .rx1) (h1 : irqRxTimeout b = true) (hr : s.region.isSome = true) (sf : Sf) (bw : Bw) (ht : drTable s.rx2Dr = some (sf, bw)) :
    exec ⟨host I, call (host I) Src.prog L (k + 8), L⟩ Src.evt_handler.body ⟨enc s x, [("evt_mask", [byteVal b])] :: fs, w⟩ =
    .ok (.next, ⟨enc { s with phase := .rx2, pp := { s.pp with sf := sf, bw := bw, invertedIq := true } } x, [("dr", [.ptr ⟨none, "uw_dr_table", s.rx2Dr⟩]), ("evt_mask", [byteVal b])] :: fs,
      (w.say (.setFrequency s.rx2Freq)).say (.setup { s.pp with sf := sf, bw := bw, invertedIq := true })⟩) := by
  unfold Src.evt_handler
  obtain ⟨b1, b2, b4, b8⟩ := irq_bits b
  have hb := b.isLt
  have hs := sf_num_lt sf
  obtain ⟨hbw, rfl⟩ := cell_dr_bw (ω := World) ⟨enc s x, fs, w⟩ _ _ _ ht
  have hb' := fun m : Mem World => (cell_dr_bw m _ _ _ ht).1
  have hn : ((Phase.num s.phase : Nat) : Int) = 3 := by rw [h]; rfl
  have h1 := bit_ne h1
  have hp : (enc s x).put "uw_state" [.int .u32 4] = enc { s with phase := .rx2 } x := rfl
  crun [hn, b1, h1, hp, hr, cell_dr_sf _ _ _ _ ht, hb', put_pkt_sf]

theorem evt_rx1_done (h : s.phase = .rx1) (h1 : irqRxTimeout b = false) (h2 : irqRxDone b = true) (hr : s.region.isSome = true) (s' : St) (x' : Extra) (w' : World)
    (hc : call (host I) Src.prog L (k + 8) "handle_downlink" [.int .i32 (Err.num (if irqCrcError b then .rxCrc else .no) : Nat)] ⟨enc { s with phase := .idle } x, [("evt_mask", [byteVal b])] :: fs, w.say (.stopTimer .rx2)⟩ =
      .ok (.null, ⟨enc s' x', [("evt_mask", [byteVal b])] :: fs, w'⟩)) :
    exec ⟨host I, call (host I) Src.prog L (k + 8), L⟩ Src.evt_handler.body ⟨enc s x, [("evt_mask", [byteVal b])] :: fs, w⟩ =
    .ok (.next, ⟨enc s' x', [("evt_mask", [byteVal b])] :: fs, w'⟩) := by
  unfold Src.evt_handler
  unfold byteVal at *
  obtain ⟨b1, b2, b4, b8⟩ := irq_bits b
  have hb := b.isLt
  have hn : ((Phase.num s.phase : Nat) : Int) = 3 := by rw [h]; rfl
  have h1 := bit_eq h1
  have h2 := bit_ne h2
  have hp : (enc s x).put "uw_state" [.int .u32 1] = enc { s with phase := .idle } x := rfl
  have ht : ∀ g fs w, call (host I) Src.prog L (k + 8) "hal.stop_timer" [.int .i32 1] ⟨g, fs, w⟩ = .ok (.null, ⟨g, fs, w.say (.stopTimer .rx2)⟩) :=
    fun g fs w => host_hal_stop_timer I L (k + 7) g fs w .i32 .rx2
  cases h8 : irqCrcError b
  · have h8' := bit_eq h8
    simp only [h8, Bool.false_eq_true, if_false, Err.num, Int.natCast_zero, Int.cast_ofNat_Int] at hc
    crun [hn, b1, b2, b8, h1, h2, h8', hp, hr, ht, hc]
  · have h8' := bit_ne h8
    simp only [h8, if_true, Err.num, Int.natCast_zero, Int.cast_ofNat_Int] at hc
    crun [hn, b1, b2, b8, h1, h2, h8', hp, hr, ht, hc]

theorem evt_rx2 (h : s.phase = .rx2) (er : Err) (h1 : irqRxTimeout b = true ∧ er = .rxTimeout ∨ irqRxTimeout b = false ∧ irqRxDone b = true ∧ er = if irqCrcError b then .rxCrc else .no) (s' : St) (x' : Extra) (w' : World)
    (hc : call (host I) Src.prog L (k + 8) "handle_downlink" [.int .i32 (Err.num er : Nat)] ⟨enc { s with phase := .idle } x, [("evt_mask", [byteVal b])] :: fs, w⟩ =
      .ok (.null, ⟨enc s' x', [("evt_mask", [byteVal b])] :: fs, w'⟩)) :
    exec ⟨host I, call (host I) Src.prog L (k + 8), L⟩ Src.evt_handler.body ⟨enc s x, [("evt_mask", [byteVal b])] :: fs, w⟩ =
    .ok (.next, ⟨enc s' x', [("evt_mask", [byteVal b])] :: fs, w'⟩) := by
  unfold Src.evt_handler
  unfold byteVal at *
  obtain ⟨b1, b2, b4, b8⟩ := irq_bits b
  have hb := b.isLt
  have hn : ((Phase.num s.phase : Nat) : Int) = 4 := by rw [h]; rfl
  have hp : (enc s x).put "uw_state" [.int .u32 1] = enc { s with phase := .idle } x := rfl
  rcases h1 with ⟨h1, rfl⟩ | ⟨h1, h2, rfl⟩
  · have h1 := bit_ne h1
    simp only [Err.num, Int.natCast_zero, Int.cast_ofNat_Int] at hc
    crun [hn, b1, h1, hp, hc]
  · have h1 := bit_eq h1
    have h2 := bit_ne h2
    cases h8 : irqCrcError b
    · have h8' := bit_eq h8
      simp only [h8, Bool.false_eq_true, if_false, Err.num, Int.natCast_zero, Int.cast_ofNat_Int] at hc
      crun [hn, b1, b2, b8, h1, h2, h8', hp, hc]
    · have h8' := bit_ne h8
      simp only [h8, if_true, Err.num, Int.natCast_zero, Int.cast_ofNat_Int] at hc
      crun [hn, b1, b2, b8, h1, h2, h8', hp, hc]

/-- The state in which `evt_handler` calls `mac_on_tx_complete`. -/
abbrev txDone (s : St) (pp : PktParams) : St := { s with phase := .rx1, pp := pp }

/-- What `evt_handler` did before that. -/
abbrev txSaid (s : St) (pp : PktParams) (w : World) : World := ((w.say (.startTimer .rx1 s.rx1Delay)).say (.startTimer .rx2 s.rx2Delay)).say (.setup pp)

theorem evt_tx_same (h : s.phase = .tx) (h4 : irqTxDone b = true) (hr : s.region.isSome = true) (ho : s.rx1Offset = 0) (s' : St) (w' : World)
    (hc : call (host I) Src.prog L (k + 8) "mac_on_tx_complete" [] ⟨enc (txDone s { s.pp with invertedIq := true }) x, [("evt_mask", [byteVal b])] :: fs, txSaid s { s.pp with invertedIq := true } w⟩ =
      .ok (.null, ⟨enc s' x, [("evt_mask", [byteVal b])] :: fs, w'⟩)) :
    exec ⟨host I, call (host I) Src.prog L (k + 8), L⟩ Src.evt_handler.body ⟨enc s x, [("evt_mask", [byteVal b])] :: fs, w⟩ =
    .ok (.next, ⟨enc s' x, [("evt_mask", [byteVal b])] :: fs, w'⟩) := by
  unfold Src.evt_handler
  unfold byteVal at *
  obtain ⟨b1, b2, b4, b8⟩ := irq_bits b
  have hb := b.isLt
  have hn : ((Phase.num s.phase : Nat) : Int) = 2 := by rw [h]; rfl
  have h4 := bit_ne h4
  have hp : (enc s x).put "uw_state" [.int .u32 3] = enc { s with phase := .rx1 } x := rfl
  have t1 : ∀ g fs w (n : Int), call (host I) Src.prog L (k + 8) "hal.start_timer" [.int .i32 0, .int .u32 n] ⟨g, fs, w⟩ = .ok (.null, ⟨g, fs, w.say (.startTimer .rx1 (BitVec.ofInt 32 n))⟩) :=
    fun g fs w => host_hal_start_timer I L (k + 7) g fs w .i32 .u32 .rx1
  have t2 : ∀ g fs w (n : Int), call (host I) Src.prog L (k + 8) "hal.start_timer" [.int .i32 1, .int .u32 n] ⟨g, fs, w⟩ = .ok (.null, ⟨g, fs, w.say (.startTimer .rx2 (BitVec.ofInt 32 n))⟩) :=
    fun g fs w => host_hal_start_timer I L (k + 7) g fs w .i32 .u32 .rx2
  have h0 : (s.rx1Offset.toNat : Int) = 0 := by rw [ho]; rfl
  crun [hn, b4, h4, hp, hr, t1, t2, h0, hc]

theorem evt_tx_same_fail (h : s.phase = .tx) (h4 : irqTxDone b = true) (hr : s.region.isSome = true) (ho : s.rx1Offset = 0) (f : Fault)
    (hc : call (host I) Src.prog L (k + 8) "mac_on_tx_complete" [] ⟨enc (txDone s { s.pp with invertedIq := true }) x, [("evt_mask", [byteVal b])] :: fs, txSaid s { s.pp with invertedIq := true } w⟩ =
      .error f) :
    exec ⟨host I, call (host I) Src.prog L (k + 8), L⟩ Src.evt_handler.body ⟨enc s x, [("evt_mask", [byteVal b])] :: fs, w⟩ =
    .error f := by
  unfold Src.evt_handler
  unfold byteVal at *
  obtain ⟨b1, b2, b4, b8⟩ := irq_bits b
  have hb := b.isLt
  have hn : ((Phase.num s.phase : Nat) : Int) = 2 := by rw [h]; rfl
  have h4 := bit_ne h4
  have hp : (enc s x).put "uw_state" [.int .u32 3] = enc { s with phase := .rx1 } x := rfl
  have t1 : ∀ g fs w (n : Int), call (host I) Src.prog L (k + 8) "hal.start_timer" [.int .i32 0, .int .u32 n] ⟨g, fs, w⟩ = .ok (.null, ⟨g, fs, w.say (.startTimer .rx1 (BitVec.ofInt 32 n))⟩) :=
    fun g fs w => host_hal_start_timer I L (k + 7) g fs w .i32 .u32 .rx1
  have t2 : ∀ g fs w (n : Int), call (host I) Src.prog L (k + 8) "hal.start_timer" [.int .i32 1, .int .u32 n] ⟨g, fs, w⟩ = .ok (.null, ⟨g, fs, w.say (.startTimer .rx2 (BitVec.ofInt 32 n))⟩) :=
    fun g fs w => host_hal_start_timer I L (k + 7) g fs w .i32 .u32 .rx2
  have h0 : (s.rx1Offset.toNat : Int) = 0 := by rw [ho]; rfl
  crun [hn, b4, h4, hp, hr, t1, t2, h0, hc]

theorem evt_tx_lower (h : s.phase = .tx) (h4 : irqTxDone b = true) (hr : s.region.isSome = true) (ho : s.rx1Offset ≠ 0) (hi : Inv s) (d : Nat) (hd : d = if s.rx1Offset.toNat > currentDr s then 0 else currentDr s - s.rx1Offset.toNat) (sf : Sf) (bw : Bw) (ht : drTable d = some (sf, bw)) (s' : St) (w' : World)
    (hc : call (host I) Src.prog L (k + 8) "mac_on_tx_complete" [] ⟨enc (txDone s { s.pp with sf := sf, bw := bw, invertedIq := true }) x, [("dr", [.ptr ⟨none, "uw_dr_table", (d : Nat)⟩]), ("dr_id", [enumVal d]), ("evt_mask", [byteVal b])] :: fs, txSaid s { s.pp with sf := sf, bw := bw, invertedIq := true } w⟩ =
      .ok (.null, ⟨enc s' x, [("dr", [.ptr ⟨none, "uw_dr_table", (d : Nat)⟩]), ("dr_id", [enumVal d]), ("evt_mask", [byteVal b])] :: fs, w'⟩)) :
    exec ⟨host I, call (host I) Src.prog L (k + 8), L⟩ Src.evt_handler.body ⟨enc s x, [("evt_mask", [byteVal b])] :: fs, w⟩ =
    .ok (.next, ⟨enc s' x, [("dr", [.ptr ⟨none, "uw_dr_table", (d : Nat)⟩]), ("dr_id", [enumVal d]), ("evt_mask", [byteVal b])] :: fs, w'⟩) := by
  unfold Src.evt_handler
  unfold byteVal at *
  obtain ⟨b1, b2, b4, b8⟩ := irq_bits b
  have hb := b.isLt
  have hn : ((Phase.num s.phase : Nat) : Int) = 2 := by rw [h]; rfl
  have h4 := bit_ne h4
  have hp : (enc s x).put "uw_state" [.int .u32 3] = enc { s with phase := .rx1 } x := rfl
  have t1 : ∀ g fs w (n : Int), call (host I) Src.prog L (k + 8) "hal.start_timer" [.int .i32 0, .int .u32 n] ⟨g, fs, w⟩ = .ok (.null, ⟨g, fs, w.say (.startTimer .rx1 (BitVec.ofInt 32 n))⟩) :=
    fun g fs w => host_hal_start_timer I L (k + 7) g fs w .i32 .u32 .rx1
  have t2 : ∀ g fs w (n : Int), call (host I) Src.prog L (k + 8) "hal.start_timer" [.int .i32 1, .int .u32 n] ⟨g, fs, w⟩ = .ok (.null, ⟨g, fs, w.say (.startTimer .rx2 (BitVec.ofInt 32 n))⟩) :=
    fun g fs w => host_hal_start_timer I L (k + 7) g fs w .i32 .u32 .rx2
  have h0 : ¬ (s.rx1Offset.toNat : Int) = 0 := by
    intro h'
    exact ho (BitVec.eq_of_toNat_eq (by simpa using h'))
  have hs := sf_num_lt sf
  obtain ⟨hbw, rfl⟩ := cell_dr_bw (ω := World) ⟨enc s x, fs, w⟩ _ _ _ ht
  have hb' := fun m : Mem World => (cell_dr_bw m _ _ _ ht).1
  have hdr := hi.dr
  have hdd := hi.defaultDr
  have hcur : currentDr s < 6 := by unfold currentDr; split <;> assumption
  have hg := fun fs w => run_get_current_dr (host I) L (k + 6) { s with phase := .rx1 } x fs w (by show s.session.dr < _; omega) (by show s.defaultDr < _; omega)
  have hcu : currentDr { s with phase := .rx1 } = currentDr s := rfl
  rw [hcu] at hg
  unfold enumVal at *
  by_cases hgt : s.rx1Offset.toNat > currentDr s
  · rw [if_pos hgt] at hd
    subst hd
    have hcmp : (currentDr s : Int) < (s.rx1Offset.toNat : Int) := by omega
    have hs' := fun m : Mem World => cell_dr_sf m _ _ _ ht
    simp only [Int.natCast_zero] at hs' hb' hc ⊢
    crun [hn, b4, h4, hp, hr, t1, t2, h0, hg, hcmp, hs', hb', put_pkt_sf, hc]
  · rw [if_neg hgt] at hd
    have hcmp : ¬ (currentDr s : Int) < (s.rx1Offset.toNat : Int) := by omega
    have hdi : (currentDr s : Int) - (s.rx1Offset.toNat : Int) = (d : Int) := by omega
    crun [hn, b4, h4, hp, hr, t1, t2, h0, hg, hcmp, hdi, cell_dr_sf _ _ _ _ ht, hb', put_pkt_sf, hc]

theorem evt_tx_lower_fail (h : s.phase = .tx) (h4 : irqTxDone b = true) (hr : s.region.isSome = true) (ho : s.rx1Offset ≠ 0) (hi : Inv s) (d : Nat) (hd : d = if s.rx1Offset.toNat > currentDr s then 0 else currentDr s - s.rx1Offset.toNat) (sf : Sf) (bw : Bw) (ht : drTable d = some (sf, bw)) (f : Fault)
    (hc : call (host I) Src.prog L (k + 8) "mac_on_tx_complete" [] ⟨enc (txDone s { s.pp with sf := sf, bw := bw, invertedIq := true }) x, [("dr", [.ptr ⟨none, "uw_dr_table", (d : Nat)⟩]), ("dr_id", [enumVal d]), ("evt_mask", [byteVal b])] :: fs, txSaid s { s.pp with sf := sf, bw := bw, invertedIq := true } w⟩ =
      .error f) :
    exec ⟨host I, call (host I) Src.prog L (k + 8), L⟩ Src.evt_handler.body ⟨enc s x, [("evt_mask", [byteVal b])] :: fs, w⟩ =
    .error f := by
  unfold Src.evt_handler
  unfold byteVal at *
  obtain ⟨b1, b2, b4, b8⟩ := irq_bits b
  have hb := b.isLt
  have hn : ((Phase.num s.phase : Nat) : Int) = 2 := by rw [h]; rfl
  have h4 := bit_ne h4
  have hp : (enc s x).put "uw_state" [.int .u32 3] = enc { s with phase := .rx1 } x := rfl
  have t1 : ∀ g fs w (n : Int), call (host I) Src.prog L (k + 8) "hal.start_timer" [.int .i32 0, .int .u32 n] ⟨g, fs, w⟩ = .ok (.null, ⟨g, fs, w.say (.startTimer .rx1 (BitVec.ofInt 32 n))⟩) :=
    fun g fs w => host_hal_start_timer I L (k + 7) g fs w .i32 .u32 .rx1
  have t2 : ∀ g fs w (n : Int), call (host I) Src.prog L (k + 8) "hal.start_timer" [.int .i32 1, .int .u32 n] ⟨g, fs, w⟩ = .ok (.null, ⟨g, fs, w.say (.startTimer .rx2 (BitVec.ofInt 32 n))⟩) :=
    fun g fs w => host_hal_start_timer I L (k + 7) g fs w .i32 .u32 .rx2
  have h0 : ¬ (s.rx1Offset.toNat : Int) = 0 := by
    intro h'
    exact ho (BitVec.eq_of_toNat_eq (by simpa using h'))
  have hs := sf_num_lt sf
  obtain ⟨hbw, rfl⟩ := cell_dr_bw (ω := World) ⟨enc s x, fs, w⟩ _ _ _ ht
  have hb' := fun m : Mem World => (cell_dr_bw m _ _ _ ht).1
  have hdr := hi.dr
  have hdd := hi.defaultDr
  have hcur : currentDr s < 6 := by unfold currentDr; split <;> assumption
  have hg := fun fs w => run_get_current_dr (host I) L (k + 6) { s with phase := .rx1 } x fs w (by show s.session.dr < _; omega) (by show s.defaultDr < _; omega)
  have hcu : currentDr { s with phase := .rx1 } = currentDr s := rfl
  rw [hcu] at hg
  unfold enumVal at *
  by_cases hgt : s.rx1Offset.toNat > currentDr s
  · rw [if_pos hgt] at hd
    subst hd
    have hcmp : (currentDr s : Int) < (s.rx1Offset.toNat : Int) := by omega
    have hs' := fun m : Mem World => cell_dr_sf m _ _ _ ht
    simp only [Int.natCast_zero] at hs' hb' hc ⊢
    crun [hn, b4, h4, hp, hr, t1, t2, h0, hg, hcmp, hs', hb', put_pkt_sf, hc]
  · rw [if_neg hgt] at hd
    have hcmp : ¬ (currentDr s : Int) < (s.rx1Offset.toNat : Int) := by omega
    have hdi : (currentDr s : Int) - (s.rx1Offset.toNat : Int) = (d : Int) := by omega
    crun [hn, b4, h4, hp, hr, t1, t2, h0, hg, hcmp, hdi, cell_dr_sf _ _ _ _ ht, hb', put_pkt_sf, hc]

theorem call_fault {ω : Type} {H : Host ω} {y : String} {f : Fun} {L k : Nat} (h : Src.prog.find y = some f) (as : List Val) (g : Objs) (fs : List Objs) (w : ω) {fr : Objs} {e : Fault}
    (hb : bindParams f.params as = .ok fr) (hx : exec ⟨H, call H Src.prog L k, L⟩ f.body ⟨g, fr :: fs, w⟩ = .error e) :
    call H Src.prog L (k + 1) y as ⟨g, fs, w⟩ = .error e := by
  rw [call_fun H h, hb]
  show andThen (exec _ _ _) _ = _
  rw [hx]
  rfl

/-- `evt_handler` of the program text does what the model says, for every radio event in every state. -/
theorem run_evt_handler (hL : 16 < L) (hi : Inv s) (hq : s.mac.queue.length + x.macTail.length = 15) (hw : 15 < w.bats.length) :
    (∃ (bat : Answers w.bats) (s' : St) (ev : List Ev) (x' : Extra) (w' : World), evtHandler I.env (I.oracle bat.1) s b = .ok (s', ev) ∧
      call (host I) Src.prog L (k + 9) "evt_handler" [.int .u8 b.toNat] ⟨enc s x, fs, w⟩ = .ok (.null, ⟨enc s' x', fs, w'⟩) ∧
      w'.ev = w.ev ++ ev ∧ Kept x x' ∧ s'.mac.queue.length + x'.macTail.length = 15) ∨
    (∃ u, (∀ bat, evtHandler I.env (I.oracle bat) s b = .error u) ∧
      call (host I) Src.prog L (k + 9) "evt_handler" [.int .u8 b.toNat] ⟨enc s x, fs, w⟩ = .error Fault.null) := by
  have hb : bindParams Src.evt_handler.params [.int .u8 b.toNat] = .ok [("evt_mask", [byteVal b])] := by
    have := b.isLt
    unfold Src.evt_handler byteVal
    crun []
  have hidle : Inv { s with phase := .idle } ∨ s.phase = .notInit := by
    by_cases h : s.phase = .notInit
    · exact .inr h
    · exact .inl { hi with region := fun _ => hi.region h }
  unfold evtHandler
  cases hp : s.phase with
  | notInit => exact .inl ⟨Answers.first hw, s, [], x, w, rfl, call_done find_evt_handler _ _ _ _ _ _ hb (evt_off I L k s x fs w b (.inl hp)) rfl, by simp, .refl x, hq⟩
  | idle => exact .inl ⟨Answers.first hw, s, [], x, w, rfl, call_done find_evt_handler _ _ _ _ _ _ hb (evt_off I L k s x fs w b (.inr hp)) rfl, by simp, .refl x, hq⟩
  | tx =>
    have hr := hi.region (by rw [hp]; decide)
    simp only
    unfold evtTx
    cases h4 : irqTxDone b with
    | false =>
      exact .inl ⟨Answers.first hw, s, [], x, w, rfl, call_done find_evt_handler _ _ _ _ _ _ hb (evt_none I L k s x fs w b (.inl ⟨hp, h4⟩)) rfl, by simp, .refl x, hq⟩
    | true =>
      simp only [if_true]
      have hcur : currentDr s < 6 := by
        unfold currentDr
        split
        · exact hi.dr
        · exact hi.defaultDr
      have hmac : ∀ pp fr w, (∃ m ev, macOnTxComplete s.mac I.devTime = .ok (m, ev) ∧ call (host I) Src.prog L (k + 8) "mac_on_tx_complete" [] ⟨enc (txDone s pp) x, fr :: fs, w⟩ = .ok (.null, ⟨enc { txDone s pp with mac := m } x, fr :: fs, { w with ev := w.ev ++ ev }⟩) ∧ m.queue = s.mac.queue) ∨
          (∃ u, macOnTxComplete s.mac I.devTime = .error u ∧ call (host I) Src.prog L (k + 8) "mac_on_tx_complete" [] ⟨enc (txDone s pp) x, fr :: fs, w⟩ = .error Fault.null) := by
        intro pp fr w
        cases hm : macOnTxComplete s.mac I.devTime with
        | error u => exact .inr ⟨u, rfl, run_mac_on_tx_complete_null I L (k + 6) (txDone s pp) x (fr :: fs) w u hm⟩
        | ok p =>
          refine .inl ⟨p.1, p.2, rfl, run_mac_on_tx_complete I L (k + 6) (txDone s pp) x (fr :: fs) w p.1 p.2 hm, ?_⟩
          unfold macOnTxComplete at hm
          split at hm
          · split at hm
            · cases hm
            · split at hm <;> cases hm <;> rfl
          · injection hm with hm
            rw [← hm]
      by_cases ho : s.rx1Offset = 0
      · have hpp : rx1Params s = .ok { s.pp with invertedIq := true } := by
          unfold rx1Params
          rw [if_neg (by simpa using ho)]
        rcases hmac { s.pp with invertedIq := true } [("evt_mask", [byteVal b])] (txSaid s { s.pp with invertedIq := true } w) with ⟨m, ev, hm, hc, hmq⟩ | ⟨u, hm, hc⟩
        · refine .inl ⟨Answers.first hw, _, [.startTimer .rx1 s.rx1Delay, .startTimer .rx2 s.rx2Delay, .setup { s.pp with invertedIq := true }] ++ ev, x, _, ?_, call_done find_evt_handler _ _ _ _ _ _ hb (evt_tx_same I L k s x fs w b hp h4 hr ho _ _ hc) rfl, ?_, .refl x, ?_⟩
          · simp only [hpp, hm, bind, Except.bind, Input.oracle]
          · simp [World.say]
          · show m.queue.length + _ = _
            rw [hmq]; exact hq
        · refine .inr ⟨u, ?_, call_fault find_evt_handler _ _ _ _ hb (evt_tx_same_fail I L k s x fs w b hp h4 hr ho _ hc)⟩
          intro bat
          simp only [hpp, hm, bind, Except.bind, Input.oracle]
      · obtain ⟨d, hd⟩ : ∃ d, d = if s.rx1Offset.toNat > currentDr s then 0 else currentDr s - s.rx1Offset.toNat := ⟨_, rfl⟩
        have hd6 : d < 6 := by
          rw [hd]
          split <;> omega
        obtain ⟨sf, ht, -⟩ := drTable_lt hd6
        have hpp : rx1Params s = .ok { s.pp with sf := sf, bw := .bw125, invertedIq := true } := by
          unfold rx1Params
          rw [if_pos ho]
          simp only [← hd, ht, orOob, bind, Except.bind]
        rcases hmac { s.pp with sf := sf, bw := .bw125, invertedIq := true } [("dr", [.ptr ⟨none, "uw_dr_table", (d : Nat)⟩]), ("dr_id", [enumVal d]), ("evt_mask", [byteVal b])] (txSaid s { s.pp with sf := sf, bw := .bw125, invertedIq := true } w) with ⟨m, ev, hm, hc, hmq⟩ | ⟨u, hm, hc⟩
        · refine .inl ⟨Answers.first hw, _, [.startTimer .rx1 s.rx1Delay, .startTimer .rx2 s.rx2Delay, .setup { s.pp with sf := sf, bw := .bw125, invertedIq := true }] ++ ev, x, _, ?_, call_done find_evt_handler _ _ _ _ _ _ hb (evt_tx_lower I L k s x fs w b hp h4 hr ho hi d hd sf _ ht _ _ hc) rfl, ?_, .refl x, ?_⟩
          · simp only [hpp, hm, bind, Except.bind, Input.oracle]
          · simp [World.say]
          · show m.queue.length + _ = _
            rw [hmq]; exact hq
        · refine .inr ⟨u, ?_, call_fault find_evt_handler _ _ _ _ hb (evt_tx_lower_fail I L k s x fs w b hp h4 hr ho hi d hd sf _ ht _ hc)⟩
          intro bat
          simp only [hpp, hm, bind, Except.bind, Input.oracle]
  | rx1 =>
    have hr := hi.region (by rw [hp]; decide)
    obtain ⟨r, hr'⟩ := Option.isSome_iff_exists.mp hr
    have hi' : Inv { s with phase := .idle } := { hi with region := fun _ => hr }
    simp only
    unfold evtRx1
    left
    cases h1 : irqRxTimeout b with
    | true =>
      obtain ⟨sf, ht, -⟩ := drTable_lt hi.rx2Dr
      refine ⟨Answers.first hw, _, _, x, _, by simp only [if_true, ht]; rfl, call_done find_evt_handler _ _ _ _ _ _ hb (evt_rx1_timeout I L k s x fs w b hp h1 hr sf _ ht) rfl, by simp [World.say], .refl x, hq⟩
    | false =>
      cases h2 : irqRxDone b with
      | false => exact ⟨Answers.first hw, s, [], x, w, rfl, call_done find_evt_handler _ _ _ _ _ _ hb (evt_none I L k s x fs w b (.inr ⟨.inl hp, h1, h2⟩)) rfl, by simp, .refl x, hq⟩
      | true =>
        obtain ⟨bat, s', ev, x', w', hm, hc, hev, hk, hq'⟩ := run_handle_downlink I L k { s with phase := .idle } x ([("evt_mask", [byteVal b])] :: fs) (w.say (.stopTimer .rx2)) hL hi' r hr' hq hw .i32 rfl (if irqCrcError b then .rxCrc else .no)
        refine ⟨bat, s', .stopTimer .rx2 :: ev, x', w', ?_, call_done find_evt_handler _ _ _ _ _ _ hb (evt_rx1_done I L k s x fs w b hp h1 h2 hr s' x' w' hc) rfl, by rw [hev]; simp [World.say], hk, hq'⟩
        simp only [Bool.false_eq_true, if_false, if_true]
        rw [hm]
        rfl
  | rx2 =>
    have hr := hi.region (by rw [hp]; decide)
    obtain ⟨r, hr'⟩ := Option.isSome_iff_exists.mp hr
    have hi' : Inv { s with phase := .idle } := { hi with region := fun _ => hr }
    simp only
    unfold evtRx2
    left
    cases h1 : irqRxTimeout b with
    | true =>
      obtain ⟨bat, s', ev, x', w', hm, hc, hev, hk, hq'⟩ := run_handle_downlink I L k { s with phase := .idle } x ([("evt_mask", [byteVal b])] :: fs) w hL hi' r hr' hq hw .i32 rfl .rxTimeout
      exact ⟨bat, s', ev, x', w', hm, call_done find_evt_handler _ _ _ _ _ _ hb (evt_rx2 I L k s x fs w b hp .rxTimeout (.inl ⟨h1, rfl⟩) s' x' w' hc) rfl, hev, hk, hq'⟩
    | false =>
      cases h2 : irqRxDone b with
      | false => exact ⟨Answers.first hw, s, [], x, w, rfl, call_done find_evt_handler _ _ _ _ _ _ hb (evt_none I L k s x fs w b (.inr ⟨.inr hp, h1, h2⟩)) rfl, by simp, .refl x, hq⟩
      | true =>
        obtain ⟨bat, s', ev, x', w', hm, hc, hev, hk, hq'⟩ := run_handle_downlink I L k { s with phase := .idle } x ([("evt_mask", [byteVal b])] :: fs) w hL hi' r hr' hq hw .i32 rfl (if irqCrcError b then .rxCrc else .no)
        exact ⟨bat, s', ev, x', w', hm, call_done find_evt_handler _ _ _ _ _ _ hb (evt_rx2 I L k s x fs w b hp _ (.inr ⟨h1, h2, rfl⟩) s' x' w' hc) rfl, hev, hk, hq'⟩

end
end Uwan.C
