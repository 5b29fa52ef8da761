import Verif.Lemmas.CodeDerive

/-! # The shorter functions of stack.c -/

namespace Uwan.C

section
variable (I : Input) (L k : Nat) (s : St) (x : Extra) (fs : List Objs) (w : World)

theorem run_utils_random_init (t : Ty) (n : Int) (h0 : 0 ≤ n) (h1 : n < 4294967296) (m : Mem World) : call (host I) Src.prog L (k + 2) "utils_random_init" [.int t n] m = .ok (.null, m) := by
  rw [call_fun (host I) find_utils_random_init]
  unfold Src.utils_random_init
  obtain ⟨g, fs, w⟩ := m
  crun []

theorem cell_power {ω : Type} (m : Mem ω) (p : Nat) (h : p < 8) : cell m (p : Int) (some [.int .u8 0, .int .u8 2, .int .u8 4, .int .u8 6, .int .u8 8, .int .u8 10, .int .u8 12, .int .u8 14]) =
    .ok (.int .u8 ((2 * p : Nat) : Int), m) := by
  match p, h with
  | 0, _ | 1, _ | 2, _ | 3, _ | 4, _ | 5, _ | 6, _ | 7, _ => rfl

theorem power_table (p : Nat) (h : p < 8) : txPowerTable p = some (2 * p) := by
  match p, h with
  | 0, _ | 1, _ | 2, _ | 3, _ | 4, _ | 5, _ | 6, _ | 7, _ => rfl

theorem run_apply_tx_power (hr : s.region.isSome = true) (hp : s.txPower.toNat < 8) (l : List Ev) (h : applyTxPower s = .ok l) :
    call (host I) Src.prog L (k + 2) "apply_tx_power" [] ⟨enc s x, fs, w⟩ = .ok (.null, ⟨enc s x, fs, w.did w.cmac l⟩) := by
  rw [call_fun (host I) find_apply_tx_power]
  unfold Src.apply_tx_power
  unfold applyTxPower at h
  rw [power_table _ hp] at h
  injection h with h
  subst h
  obtain ⟨h0, h1⟩ := i8_bounds s.maxEirp
  crun [hr, cell_power _ _ hp]
  simp [World.did, World.say]

@[csem] theorem phase_num_notInit : ((Phase.num .notInit : Nat) : Int) = 0 := rfl
@[csem] theorem phase_num_idle : ((Phase.num .idle : Nat) : Int) = 1 := rfl
@[csem] theorem phase_num_tx : ((Phase.num .tx : Nat) : Int) = 2 := rfl
@[csem] theorem phase_num_rx1 : ((Phase.num .rx1 : Nat) : Int) = 3 := rfl
@[csem] theorem phase_num_rx2 : ((Phase.num .rx2 : Nat) : Int) = 4 := rfl
theorem timer_num_rx1 : ((TimerId.num .rx1 : Nat) : Int) = 0 := rfl
theorem timer_num_rx2 : ((TimerId.num .rx2 : Nat) : Int) = 1 := rfl

theorem run_uwan_timer_callback (hr : s.region.isSome = true) (i : TimerId) : call (host I) Src.prog L (k + 2) "uwan_timer_callback" [enumVal (TimerId.num i)] ⟨enc s x, fs, w⟩ =
    .ok (.null, ⟨enc (timerCallback s i).1 x, fs, w.did w.cmac (timerCallback s i).2⟩) := by
  rw [call_fun (host I) find_uwan_timer_callback]
  unfold Src.uwan_timer_callback timerCallback
  cases hp : s.phase <;> cases i <;> crun [hr, hp, timer_num_rx1, timer_num_rx2] <;> simp [World.did, World.say]

/-- The largest payload of a data rate. -/
def maxPld (d : Nat) : Nat := (maxAppPldSize d).getD 0

theorem cell_max_pld {ω : Type} (m : Mem ω) (d : Nat) (h : d < 6) : cell m (d : Int) (some [.int .u8 51, .int .u8 51, .int .u8 51, .int .u8 115, .int .u8 222, .int .u8 222]) = .ok (.int .u8 (maxPld d), m) := by
  match d, h with
  | 0, _ | 1, _ | 2, _ | 3, _ | 4, _ | 5, _ => rfl

theorem maxPld_lt (d : Nat) : maxPld d < 223 := by
  unfold maxPld maxAppPldSize
  match d with
  | 0 | 1 | 2 | 3 | 4 | 5 => decide
  | _ + 6 => exact (by decide : (0 : Nat) < 223)

theorem maxPld_none (d : Nat) (h : ¬ d < 6) : maxPld d = 0 := by
  unfold maxPld maxAppPldSize
  rw [List.getElem?_eq_none (by simpa using h)]
  rfl

theorem run_uwan_get_max_payload_size (h0 : s.session.dr < 4294967296) (h1 : s.defaultDr < 4294967296) (hq : s.mac.queue.length < 256) :
    call (host I) Src.prog L (k + 3) "uwan_get_max_payload_size" [] ⟨enc s x, fs, w⟩ = .ok (.int .u8 (getMaxPayloadSize s), ⟨enc s x, fs, w⟩) := by
  rw [call_fun (host I) find_uwan_get_max_payload_size]
  unfold Src.uwan_get_max_payload_size
  have hd : currentDr s < 4294967296 := by unfold currentDr; split <;> assumption
  have hm : getMaxPayloadSize s = if s.mac.queue.length ≤ maxPld (currentDr s) then maxPld (currentDr s) - s.mac.queue.length else 0 := rfl
  have hl := maxPld_lt (currentDr s)
  by_cases h6 : currentDr s < 6
  · by_cases hle : s.mac.queue.length ≤ maxPld (currentDr s)
    · rw [if_pos hle] at hm
      rw [hm]
      crun [run_get_current_dr, run_mac_get_payload_size, cell_max_pld _ _ h6]
      rw [Int.ofNat_sub hle]
    · rw [if_neg hle] at hm
      rw [hm]
      crun [run_get_current_dr, run_mac_get_payload_size, cell_max_pld _ _ h6]
      rfl
  · have hz := maxPld_none _ h6
    rw [hz] at hm
    by_cases hle : s.mac.queue.length ≤ 0
    · rw [if_pos hle] at hm
      rw [hm]
      crun [run_get_current_dr, run_mac_get_payload_size]
      rw [Int.ofNat_sub hle]
      rfl
    · rw [if_neg hle] at hm
      rw [hm]
      crun [run_get_current_dr, run_mac_get_payload_size]
      rfl

theorem run_uwan_set_otaa_keys (d a : Vector Byte 8) (key : Block) (rd ra rk : Ref)
    (hd : ∀ s' f w, loads rd 8 (⟨enc s' x, f :: fs, w⟩ : Mem World) = .ok (d.toList.map byteVal, ⟨enc s' x, f :: fs, w⟩))
    (ha : ∀ s' f w, loads ra 8 (⟨enc s' x, f :: fs, w⟩ : Mem World) = .ok (a.toList.map byteVal, ⟨enc s' x, f :: fs, w⟩))
    (hk : ∀ s' f w, loads rk 16 (⟨enc s' x, f :: fs, w⟩ : Mem World) = .ok (key.toList.map byteVal, ⟨enc s' x, f :: fs, w⟩)) :
    call (host I) Src.prog L (k + 2) "uwan_set_otaa_keys" [.ptr rd, .ptr ra, .ptr rk] ⟨enc s x, fs, w⟩ = .ok (.null, ⟨enc { s with devEui := d, appEui := a, appKey := key } x, fs, w⟩) := by
  rw [call_fun (host I) find_uwan_set_otaa_keys]
  unfold Src.uwan_set_otaa_keys
  have e1 : ∀ s f w, stores ⟨none, "uw_dev_eui", 0⟩ (d.toList.map byteVal) (⟨enc s x, f :: fs, w⟩ : Mem World) = .ok ((), ⟨enc { s with devEui := d } x, f :: fs, w⟩) := by
    intro s f w
    have := stores_bytes (m := (⟨enc s x, f :: fs, w⟩ : Mem World)) (fr := none) (o := "uw_dev_eui") (l := s.devEui.toList) rfl (off := 0) (v := d.toList) (r := d.toList) (by simp [blit])
    exact this
  have e2 : ∀ s f w, stores ⟨none, "uw_app_eui", 0⟩ (a.toList.map byteVal) (⟨enc s x, f :: fs, w⟩ : Mem World) = .ok ((), ⟨enc { s with appEui := a } x, f :: fs, w⟩) := by
    intro s f w
    have := stores_bytes (m := (⟨enc s x, f :: fs, w⟩ : Mem World)) (fr := none) (o := "uw_app_eui") (l := s.appEui.toList) rfl (off := 0) (v := a.toList) (r := a.toList) (by simp [blit])
    exact this
  have e3 : ∀ s f w, stores ⟨none, "uw_app_key", 0⟩ (key.toList.map byteVal) (⟨enc s x, f :: fs, w⟩ : Mem World) = .ok ((), ⟨enc { s with appKey := key } x, f :: fs, w⟩) := by
    intro s f w
    have := stores_bytes (m := (⟨enc s x, f :: fs, w⟩ : Mem World)) (fr := none) (o := "uw_app_key") (l := s.appKey.toList) rfl (off := 0) (v := key.toList) (r := key.toList) (by simp [blit])
    exact this
  crun [hd, ha, hk, e1, e2, e3]

theorem run_uwan_set_session (addr up down : U32) (n a : Block) (rn ra : Ref) (t t' t'' : Ty) (hdr : s.defaultDr < 4294967296)
    (hn : ∀ s' f w, loads rn 16 (⟨enc s' x, f :: fs, w⟩ : Mem World) = .ok (n.toList.map byteVal, ⟨enc s' x, f :: fs, w⟩))
    (ha : ∀ s' f w, loads ra 16 (⟨enc s' x, f :: fs, w⟩ : Mem World) = .ok (a.toList.map byteVal, ⟨enc s' x, f :: fs, w⟩)) :
    call (host I) Src.prog L (k + 2) "uwan_set_session" [.int t addr.toNat, .int t' up.toNat, .int t'' down.toNat, .ptr rn, .ptr ra] ⟨enc s x, fs, w⟩ = .ok (.null, ⟨enc (setSession s addr up down n a) x, fs, w⟩) := by
  rw [call_fun (host I) find_uwan_set_session]
  unfold Src.uwan_set_session
  have e1 : ∀ s f w, stores ⟨none, "uw_session.nwk_s_key", 0⟩ (n.toList.map byteVal) (⟨enc s x, f :: fs, w⟩ : Mem World) = .ok ((), ⟨enc { s with session := { s.session with nwkSKey := n } } x, f :: fs, w⟩) := by
    intro s f w
    have := stores_bytes (m := (⟨enc s x, f :: fs, w⟩ : Mem World)) (fr := none) (o := "uw_session.nwk_s_key") (l := s.session.nwkSKey.toList) rfl (off := 0) (v := n.toList) (r := n.toList) (by simp [blit])
    exact this
  have e2 : ∀ s f w, stores ⟨none, "uw_session.app_s_key", 0⟩ (a.toList.map byteVal) (⟨enc s x, f :: fs, w⟩ : Mem World) = .ok ((), ⟨enc { s with session := { s.session with appSKey := a } } x, f :: fs, w⟩) := by
    intro s f w
    have := stores_bytes (m := (⟨enc s x, f :: fs, w⟩ : Mem World)) (fr := none) (o := "uw_session.app_s_key") (l := s.session.appSKey.toList) rfl (off := 0) (v := a.toList) (r := a.toList) (by simp [blit])
    exact this
  have b1 := addr.isLt
  have b2 := up.isLt
  have b3 := down.isLt
  crun [hn, ha, e1, e2]
  simp [setSession]

/-- Zeroing a variable. -/
theorem zero_glob {ω : Type} (g : Objs) (fs : List Objs) (w : ω) (o : String) (l : List Val) (h : g.get o = some l) : zeroObj ⟨none, o, 0⟩ (⟨g, fs, w⟩ : Mem ω) = .ok ((), ⟨g.put o (l.map zeroCell), fs, w⟩) := by
  unfold zeroObj
  simp only [getObj_glob, h, putObj_glob]

theorem zero_bytes (b : Block) : (b.toList.map byteVal).map zeroCell = (Vector.replicate 16 (0 : Byte)).toList.map byteVal := by
  rw [List.map_map]
  have : zeroCell ∘ byteVal = fun _ => byteVal 0 := rfl
  rw [this, List.map_const']
  simp

section
variable (fs : List Objs) (w : World)
theorem zero_is_joined : zeroObj ⟨none, "uw_session.is_joined", 0⟩ ⟨enc s x, fs, w⟩ = .ok ((), ⟨enc { s with session := { s.session with isJoined := false } } x, fs, w⟩) := by
  rw [zero_glob _ _ _ _ _ (get_uw_session_is_joined s x)]; rfl
theorem zero_ack_required : zeroObj ⟨none, "uw_session.ack_required", 0⟩ ⟨enc s x, fs, w⟩ = .ok ((), ⟨enc { s with session := { s.session with ackRequired := false } } x, fs, w⟩) := by
  rw [zero_glob _ _ _ _ _ (get_uw_session_ack_required s x)]; rfl
theorem zero_dr : zeroObj ⟨none, "uw_session.dr", 0⟩ ⟨enc s x, fs, w⟩ = .ok ((), ⟨enc { s with session := { s.session with dr := 0 } } x, fs, w⟩) := by
  rw [zero_glob _ _ _ _ _ (get_uw_session_dr s x)]; rfl
theorem zero_dev_addr : zeroObj ⟨none, "uw_session.dev_addr", 0⟩ ⟨enc s x, fs, w⟩ = .ok ((), ⟨enc { s with session := { s.session with devAddr := 0 } } x, fs, w⟩) := by
  rw [zero_glob _ _ _ _ _ (get_uw_session_dev_addr s x)]; rfl
theorem zero_f_cnt_up : zeroObj ⟨none, "uw_session.f_cnt_up", 0⟩ ⟨enc s x, fs, w⟩ = .ok ((), ⟨enc { s with session := { s.session with fCntUp := 0 } } x, fs, w⟩) := by
  rw [zero_glob _ _ _ _ _ (get_uw_session_f_cnt_up s x)]; rfl
theorem zero_f_cnt_down : zeroObj ⟨none, "uw_session.f_cnt_down", 0⟩ ⟨enc s x, fs, w⟩ = .ok ((), ⟨enc { s with session := { s.session with fCntDown := 0 } } x, fs, w⟩) := by
  rw [zero_glob _ _ _ _ _ (get_uw_session_f_cnt_down s x)]; rfl
theorem zero_nwk : zeroObj ⟨none, "uw_session.nwk_s_key", 0⟩ ⟨enc s x, fs, w⟩ = .ok ((), ⟨enc { s with session := { s.session with nwkSKey := Vector.replicate 16 0 } } x, fs, w⟩) := by
  rw [zero_glob _ _ _ _ _ (rfl : (enc s x).get "uw_session.nwk_s_key" = some (s.session.nwkSKey.toList.map byteVal)), zero_bytes]
  rfl
theorem zero_app : zeroObj ⟨none, "uw_session.app_s_key", 0⟩ ⟨enc s x, fs, w⟩ = .ok ((), ⟨enc { s with session := { s.session with appSKey := Vector.replicate 16 0 } } x, fs, w⟩) := by
  rw [zero_glob _ _ _ _ _ (rfl : (enc s x).get "uw_session.app_s_key" = some (s.session.appSKey.toList.map byteVal)), zero_bytes]
  rfl
end

theorem zero_session (C : Ctx World) : zeroAll C [.glob "uw_session.is_joined", .glob "uw_session.ack_required", .glob "uw_session.dr", .glob "uw_session.dev_addr", .glob "uw_session.f_cnt_up", .glob "uw_session.f_cnt_down",
    .glob "uw_session.nwk_s_key", .glob "uw_session.app_s_key"] ⟨enc s x, fs, w⟩ = .ok ((), ⟨enc { s with session := .zero } x, fs, w⟩) := by
  crun [zeroAll, zero_is_joined, zero_ack_required, zero_dr, zero_dev_addr, zero_f_cnt_up, zero_f_cnt_down, zero_nwk, zero_app]
  rfl

theorem get_put_radio (v : List Val) : ((enc s x).put "uw_radio" v).get "uw_stack_hal" = some [if s.region.isSome then globPtr "hal" else .null] := rfl
theorem get_put_hal (v v' : List Val) : (((enc s x).put "uw_radio" v).put "uw_stack_hal" v').get "uw_region" = some [regionVal s.region] := rfl
theorem put_pointers_eu868 : (((enc s x).put "uw_radio" [.ptr ⟨none, "radio", 0⟩]).put "uw_stack_hal" [.ptr ⟨none, "hal", 0⟩]).put "uw_region" [.ptr ⟨none, "region_eu868", 0⟩] = enc { s with region := some .eu868 } x := rfl
theorem put_pointers_ru864 : (((enc s x).put "uw_radio" [.ptr ⟨none, "radio", 0⟩]).put "uw_stack_hal" [.ptr ⟨none, "hal", 0⟩]).put "uw_region" [.ptr ⟨none, "region_ru864", 0⟩] = enc { s with region := some .ru864 } x := rfl
theorem assign_opt_ptr (c : Bool) (r r' : Ref) : assign (if c = true then .ptr r else .null) (.ptr r') = .ok (.ptr r') := by cases c <;> rfl
theorem assign_region (o : Option Region) (r' : Ref) : assign (regionVal o) (.ptr r') = .ok (.ptr r') := by
  rcases o with _ | _ | _ <;> rfl

theorem run_uwan_init (hL : 16 < L) (r : Region) : call (host I) Src.prog L (k + 4) "uwan_init" [globPtr "radio", globPtr "hal", regionVal (some r)] ⟨enc s x, fs, w⟩ =
    .ok (.null, ⟨enc (uwanInit s r).1 { x with macTail := s.mac.queue ++ x.macTail }, fs, w.did w.cmac (uwanInit s r).2⟩) := by
  rw [call_fun (host I) find_uwan_init]
  unfold Src.uwan_init
  have hseed := I.seed.isLt
  have hm' : (channelsInit s.chan).maxCount < 256 := by simp [channelsInit]
  have hw : (w.say .setEvtHandler).say .radioRand = w.did w.cmac [.setEvtHandler, .radioRand] := by simp [World.did, World.say]
  cases r
  · have hv : regionVal (some .eu868) = .ptr ⟨none, "region_eu868", 0⟩ := rfl
    rw [hv]
    crun [exec_zero, zero_session, get_put_radio, get_put_hal, put_pointers_eu868, assign_opt_ptr, assign_region, hv, run_mac_init, run_channels_init, run_eu868_init, run_utils_random_init]
    rw [hw]
    rfl
  · have hv : regionVal (some .ru864) = .ptr ⟨none, "region_ru864", 0⟩ := rfl
    rw [hv]
    crun [exec_zero, zero_session, get_put_radio, get_put_hal, put_pointers_ru864, assign_opt_ptr, assign_region, hv, run_mac_init, run_channels_init, run_ru864_init, run_utils_random_init]
    rw [hw]
    rfl

end
end Uwan.C
