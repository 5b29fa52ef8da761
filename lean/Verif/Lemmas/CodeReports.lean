import Verif.Lemmas.CodeCommands

/-! # The handlers of `mac.c` that call the application -/

namespace Uwan.C

theorem and63_all : ∀ b : Fin 256, ofBits .i32 (bits (BitVec.ofNat 8 b.val).toInt &&& bits 63) = ((BitVec.ofNat 8 b.val &&& 0x3f).toNat : Int) := by decide +kernel

theorem and63 (b : BitVec 8) : ofBits .i32 (bits b.toInt &&& bits 63) = ((b &&& 0x3f).toNat : Int) := by
  have h := and63_all ⟨b.toNat, b.isLt⟩
  simpa only [BitVec.ofNat_toNat, BitVec.setWidth_eq] using h

@[csem] theorem optFn_true (f : String) : optFn true f = .fn f := (rfl)
@[csem] theorem optFn_false (f : String) : optFn false f = .null := (rfl)

section
variable {ω : Type}
@[csem] theorem setCell_two0 (m : Mem ω) (fr : Option Nat) (x : String) (v a b : Val) : setCell m fr x 0 v (some [a, b]) = setTo m fr x 0 [a, b] (assign a v) := (rfl)
@[csem] theorem setCell_two1 (m : Mem ω) (fr : Option Nat) (x : String) (v a b : Val) : setCell m fr x 1 v (some [a, b]) = setTo m fr x 1 [a, b] (assign b v) := (rfl)

variable (H : Host ω) (L k : Nat) (s : St) (x : Extra) (fs : List Objs) (w : ω)

theorem run_uwan_mac_set_handlers_null : call H Src.prog L (k + 1) "uwan_mac_set_handlers" [.null] ⟨enc s x, fs, w⟩ =
    .ok (.null, ⟨enc { s with mac := { s.mac with cbs := none } } { x with cbs := s.mac.cbs.getD x.cbs }, fs, w⟩) := by
  rw [call_fun H find_uwan_mac_set_handlers]
  unfold Src.uwan_mac_set_handlers
  have hp : (enc s x).put "mac_cbs" [.null] = enc { s with mac := { s.mac with cbs := none } } { x with cbs := s.mac.cbs.getD x.cbs } := rfl
  cases hc : s.mac.cbs <;> rw [hc] at hp <;> crun [hc, hp, Option.isSome_some, Option.isSome_none, Option.getD_none, Option.getD_some]

/-- The application has filled the table before it passes the pointer. -/
theorem run_uwan_mac_set_handlers (c : MacCbs) (h : s.mac.cbs = some c ∨ (s.mac.cbs = none ∧ x.cbs = c)) :
    call H Src.prog L (k + 1) "uwan_mac_set_handlers" [.ptr ⟨none, "cbs", 0⟩] ⟨enc s x, fs, w⟩ =
    .ok (.null, ⟨enc { s with mac := { s.mac with cbs := some c } } x, fs, w⟩) := by
  rw [call_fun H find_uwan_mac_set_handlers]
  unfold Src.uwan_mac_set_handlers
  have hg : s.mac.cbs.getD x.cbs = c := by
    rcases h with h | ⟨h, h'⟩
    · rw [h]; rfl
    · rw [h]; exact h'
  have hp : (enc s x).put "mac_cbs" [.ptr ⟨none, "cbs", 0⟩] = enc { s with mac := { s.mac with cbs := some c } } x := by
    rw [← hg]
    rfl
  cases hc : s.mac.cbs <;> crun [hc, hp, Option.isSome_some, Option.isSome_none]
end

section
variable (I : Input) (L k : Nat) (s : St) (x : Extra) (fs : List Objs) (w : World)

theorem run_link_check (p : Int) (h0 : 0 ≤ p) (h1 : p + 2 ≤ s.frame.length) :
    call (host I) Src.prog L (k + 2) "link_check" [.ptr ⟨none, "uw_frame", p⟩] ⟨enc s x, fs, w⟩ =
    .ok (boolVal true, ⟨enc s x, fs, match s.mac.cbs with
      | some c => if c.linkCheck then w.say (.linkCheckResult (byteAt s.frame p) (byteAt s.frame (p + 1))) else w
      | none => w⟩) := by
  rw [call_fun (host I) find_link_check]
  unfold Src.link_check
  cases hc : s.mac.cbs with
  | none => crun [hc, Option.isSome_none]
  | some c =>
    simp only
    cases hb : c.linkCheck <;> crun [hc, hb, Option.isSome_some, Option.getD_some]

theorem run_dev_status (r : Ref) (b : Byte) (bs : List Byte) (hw : w.bats = b :: bs) (hq : s.mac.queue.length + x.macTail.length = 15) :
    ∃ u, u = (match s.mac.cbs with | some c => c.battery | none => false) ∧
    call (host I) Src.prog L (k + 3) "dev_status" [.ptr r] ⟨enc s x, fs, w⟩ =
    .ok (boolVal (s.enqueue 0x06 [if u then b else 255, s.snr &&& 0x3f]).1,
      ⟨enc (s.enqueue 0x06 [if u then b else 255, s.snr &&& 0x3f]).2 (x.eat 3), fs, if u then { w with bats := bs, ev := w.ev ++ [.getBattery] } else w⟩) := by
  refine ⟨_, rfl, ?_⟩
  rw [call_fun (host I) find_dev_status]
  unfold Src.dev_status
  obtain ⟨hs0, hs1⟩ := i8_bounds s.snr
  have hl := (s.snr &&& 0x3f).isLt
  cases hc : s.mac.cbs with
  | none =>
    simp only
    crun [List.replicate, hc, Option.isSome_none, run_get_snr, and63, enqueue_at, enqAt_two]
  | some c =>
    simp only
    by_cases hb : c.battery = true
    · rw [if_pos hb, if_pos hb]
      crun [List.replicate, hc, hb, Option.isSome_some, Option.getD_some, run_get_snr, and63, hw, enqueue_at, enqAt_two]
    · rw [if_neg hb, if_neg hb]
      rw [Bool.not_eq_true] at hb
      crun [List.replicate, hc, hb, Option.isSome_some, Option.getD_some, run_get_snr, and63, enqueue_at, enqAt_two]

/-- The world after an undefined shift. -/
def World.shifted (w : World) (b : Byte) : World := if 128 ≤ b.toNat then w.say .ubShift else w

theorem run_device_time (p : Int) (h0 : 0 ≤ p) (h1 : p + 5 ≤ s.frame.length) :
    call (host I) Src.prog L (k + 2) "device_time" [.ptr ⟨none, "uw_frame", p⟩] ⟨enc s x, fs, w⟩ =
    .ok (boolVal true, ⟨enc s x, fs, match s.mac.cbs with
      | some c => if c.timeResult then (w.shifted (byteAt s.frame (p + 3))).say (.deviceTimeResult s.mac.devTime
          (gpsToUnix (or32 (byteAt s.frame p) (byteAt s.frame (p + 1)) (byteAt s.frame (p + 2)) (byteAt s.frame (p + 3)))) (byteAt s.frame (p + 4))) else w
      | none => w⟩) := by
  rw [call_fun (host I) find_device_time]
  unfold Src.device_time
  have hsh : ∀ (b : Byte) (g : Objs) (fs : List Objs), shift (host I) .shl .i32 (b.toNat : Int) 24 ⟨g, fs, w⟩ =
      .ok (.int .i32 (ofBits .i32 (b.setWidth 32 <<< 24)), ⟨g, fs, w.shifted b⟩) := by
    intro b g fs
    rw [shl24]
    rfl
  cases hc : s.mac.cbs with
  | none => crun [hc, Option.isSome_none]
  | some c =>
    simp only
    cases hb : c.timeResult
    · crun [hc, hb, Option.isSome_some, Option.getD_some]
    · crun [hc, hb, Option.isSome_some, Option.getD_some, bits_byte, bits_shl, bits_ofBits_i32, or32_bits, conv_u32_bits, hsh, run_utils_gps_to_unix]

theorem run_mac_on_tx_complete (m : Mac) (ev : List Ev) (h : macOnTxComplete s.mac I.devTime = .ok (m, ev)) :
    call (host I) Src.prog L (k + 2) "mac_on_tx_complete" [] ⟨enc s x, fs, w⟩ = .ok (.null, ⟨enc { s with mac := m } x, fs, { w with ev := w.ev ++ ev }⟩) := by
  rw [call_fun (host I) find_mac_on_tx_complete]
  unfold Src.mac_on_tx_complete
  unfold macOnTxComplete at h
  by_cases hs : s.mac.saveDevTime = true
  · rw [if_pos hs] at h
    cases hc : s.mac.cbs with
    | none => simp [hc] at h
    | some c =>
      simp only [hc] at h
      have hp : (enc s x).put "mac_save_dev_time" [boolVal false] = enc { s with mac := { s.mac with saveDevTime := false } } x := rfl
      have hq : (enc { s with mac := { s.mac with saveDevTime := false } } x).put "mac_dev_time" [u32Val I.devTime] = enc { s with mac := { s.mac with saveDevTime := false, devTime := I.devTime } } x := rfl
      by_cases hg : c.getTime = true
      · rw [if_pos hg] at h
        cases h
        crun [hs, hc, hg, hp, hq, Option.isSome_some, Option.getD_some]
        rfl
      · rw [if_neg hg] at h
        rw [Bool.not_eq_true] at hg
        cases h
        crun [hs, hc, hg, hp, Option.isSome_some, Option.getD_some]
        try rw [List.append_nil]
  · rw [if_neg hs] at h
    rw [Bool.not_eq_true] at hs
    cases h
    crun [hs]
    try rw [List.append_nil]

/-- Without callbacks a remembered time request makes the program follow a null pointer, as the model says. -/
theorem run_mac_on_tx_complete_null (u : UB) (h : macOnTxComplete s.mac I.devTime = .error u) :
    call (host I) Src.prog L (k + 2) "mac_on_tx_complete" [] ⟨enc s x, fs, w⟩ = .error Fault.null := by
  rw [call_fun (host I) find_mac_on_tx_complete]
  unfold Src.mac_on_tx_complete
  unfold macOnTxComplete at h
  by_cases hs : s.mac.saveDevTime = true
  · rw [if_pos hs] at h
    cases hc : s.mac.cbs with
    | none =>
      simp only [hc] at h
      cases h
      have hp : (enc s x).put "mac_save_dev_time" [boolVal false] = enc { s with mac := { s.mac with saveDevTime := false } } x := rfl
      crun [hs, hc, hp, Option.isSome_none]
    | some c => simp only [hc] at h; split at h <;> cases h
  · rw [if_neg hs] at h
    cases h
end
end Uwan.C
