import Verif.Lemmas.CodeMac

/-! # Calls out of the stack -/

namespace Uwan.C

/-- The call `e` has been made. -/
def World.say (w : World) (e : Ev) : World := { w with ev := w.ev ++ [e] }

section
variable (w : World) (e : Ev)
@[csem] theorem say_rands : (w.say e).rands = w.rands := (rfl)
@[csem] theorem say_bats : (w.say e).bats = w.bats := (rfl)
@[csem] theorem say_cmac : (w.say e).cmac = w.cmac := (rfl)
end

theorem find_radio_set_evt_handler : Src.prog.find "radio.set_evt_handler" = none := (rfl)
theorem find_radio_rand : Src.prog.find "radio.rand" = none := (rfl)
theorem find_radio_set_frequency : Src.prog.find "radio.set_frequency" = none := (rfl)
theorem find_radio_setup : Src.prog.find "radio.setup" = none := (rfl)
theorem find_radio_set_power : Src.prog.find "radio.set_power" = none := (rfl)
theorem find_radio_tx : Src.prog.find "radio.tx" = none := (rfl)
theorem find_radio_rx : Src.prog.find "radio.rx" = none := (rfl)
theorem find_radio_read_packet : Src.prog.find "radio.read_packet" = none := (rfl)
theorem find_radio_sleep : Src.prog.find "radio.sleep" = none := (rfl)
theorem find_hal_start_timer : Src.prog.find "hal.start_timer" = none := (rfl)
theorem find_hal_stop_timer : Src.prog.find "hal.stop_timer" = none := (rfl)
theorem find_hal_downlink_callback : Src.prog.find "hal.downlink_callback" = none := (rfl)
theorem find_hal_crypto_aes_create_context : Src.prog.find "hal.crypto_aes_create_context" = none := (rfl)
theorem find_hal_crypto_aes_encrypt : Src.prog.find "hal.crypto_aes_encrypt" = none := (rfl)
theorem find_hal_crypto_aes_delete_context : Src.prog.find "hal.crypto_aes_delete_context" = none := (rfl)
theorem find_hal_crypto_cmac_create_context : Src.prog.find "hal.crypto_cmac_create_context" = none := (rfl)
theorem find_hal_crypto_cmac_update : Src.prog.find "hal.crypto_cmac_update" = none := (rfl)
theorem find_hal_crypto_cmac_finish : Src.prog.find "hal.crypto_cmac_finish" = none := (rfl)
theorem find_hal_crypto_cmac_delete_context : Src.prog.find "hal.crypto_cmac_delete_context" = none := (rfl)
theorem find_app_get_battery_level : Src.prog.find "app.get_battery_level" = none := (rfl)
theorem find_app_link_check_result : Src.prog.find "app.link_check_result" = none := (rfl)
theorem find_app_get_device_time : Src.prog.find "app.get_device_time" = none := (rfl)
theorem find_app_device_time_result : Src.prog.find "app.device_time_result" = none := (rfl)

section
variable (I : Input) (L k : Nat) (g : Objs) (fs : List Objs) (w : World)

@[csem] theorem host_srand (t : Ty) (n : Int) (m : Mem World) : call (host I) Src.prog L (k + 1) "srand" [.int t n] m = .ok (.null, m) := by
  rw [call_lib (host I) find_srand]
  rfl

@[csem] theorem host_radio_set_evt_handler : call (host I) Src.prog L (k + 1) "radio.set_evt_handler" [.fn "evt_handler"] ⟨g, fs, w⟩ = .ok (.null, ⟨g, fs, w.say .setEvtHandler⟩) := by
  rw [call_lib (host I) find_radio_set_evt_handler]
  rfl

@[csem] theorem host_radio_rand : call (host I) Src.prog L (k + 1) "radio.rand" [] ⟨g, fs, w⟩ = .ok (u32Val I.seed, ⟨g, fs, w.say .radioRand⟩) := by
  rw [call_lib (host I) find_radio_rand]
  rfl

@[csem] theorem host_radio_set_frequency (t : Ty) (n : Int) : call (host I) Src.prog L (k + 1) "radio.set_frequency" [.int t n] ⟨g, fs, w⟩ = .ok (.null, ⟨g, fs, w.say (.setFrequency (BitVec.ofInt 32 n))⟩) := by
  rw [call_lib (host I) find_radio_set_frequency]
  rfl

@[csem] theorem host_radio_set_power (t : Ty) (n : Int) : call (host I) Src.prog L (k + 1) "radio.set_power" [.int t n] ⟨g, fs, w⟩ = .ok (.null, ⟨g, fs, w.say (.setPower (BitVec.ofInt 8 n))⟩) := by
  rw [call_lib (host I) find_radio_set_power]
  rfl

@[csem] theorem host_radio_rx (t t' t'' : Ty) (a b c : Int) : call (host I) Src.prog L (k + 1) "radio.rx" [.int t a, .int t' b, .int t'' c] ⟨g, fs, w⟩ = .ok (.null, ⟨g, fs, w.say (.rx (a % 256).toNat (b % 65536).toNat (c % 4294967296).toNat)⟩) := by
  rw [call_lib (host I) find_radio_rx]
  rfl

@[csem] theorem host_radio_sleep : call (host I) Src.prog L (k + 1) "radio.sleep" [] ⟨g, fs, w⟩ = .ok (.null, ⟨g, fs, w.say .sleep⟩) := by
  rw [call_lib (host I) find_radio_sleep]
  rfl

@[csem] theorem host_hal_crypto_aes_delete_context (l : List Int) : call (host I) Src.prog L (k + 1) "hal.crypto_aes_delete_context" [.opaque l] ⟨g, fs, w⟩ = .ok (.null, ⟨g, fs, w.say .aesDel⟩) := by
  rw [call_lib (host I) find_hal_crypto_aes_delete_context]
  rfl

@[csem] theorem host_hal_crypto_cmac_delete_context (l : List Int) : call (host I) Src.prog L (k + 1) "hal.crypto_cmac_delete_context" [.opaque l] ⟨g, fs, w⟩ = .ok (.null, ⟨g, fs, w.say .cmacDel⟩) := by
  rw [call_lib (host I) find_hal_crypto_cmac_delete_context]
  rfl

@[csem] theorem host_app_link_check_result (t t' : Ty) (a b : Int) : call (host I) Src.prog L (k + 1) "app.link_check_result" [.int t a, .int t' b] ⟨g, fs, w⟩ = .ok (.null, ⟨g, fs, w.say (.linkCheckResult (BitVec.ofInt 8 a) (BitVec.ofInt 8 b))⟩) := by
  rw [call_lib (host I) find_app_link_check_result]
  rfl

@[csem] theorem host_app_get_device_time : call (host I) Src.prog L (k + 1) "app.get_device_time" [] ⟨g, fs, w⟩ = .ok (u32Val I.devTime, ⟨g, fs, w.say .getDeviceTime⟩) := by
  rw [call_lib (host I) find_app_get_device_time]
  rfl

@[csem] theorem host_app_device_time_result (t t' t'' : Ty) (a b c : Int) : call (host I) Src.prog L (k + 1) "app.device_time_result" [.int t a, .int t' b, .int t'' c] ⟨g, fs, w⟩ = .ok (.null, ⟨g, fs, w.say (.deviceTimeResult (BitVec.ofInt 32 a) (BitVec.ofInt 32 b) (BitVec.ofInt 8 c))⟩) := by
  rw [call_lib (host I) find_app_device_time_result]
  rfl

@[csem] theorem host_hal_start_timer (t t' : Ty) (i : TimerId) (n : Int) : call (host I) Src.prog L (k + 1) "hal.start_timer" [.int t (TimerId.num i : Nat), .int t' n] ⟨g, fs, w⟩ =
    .ok (.null, ⟨g, fs, w.say (.startTimer i (BitVec.ofInt 32 n))⟩) := by
  rw [call_lib (host I) find_hal_start_timer]
  cases i <;> rfl

@[csem] theorem host_hal_stop_timer (t : Ty) (i : TimerId) : call (host I) Src.prog L (k + 1) "hal.stop_timer" [.int t (TimerId.num i : Nat)] ⟨g, fs, w⟩ =
    .ok (.null, ⟨g, fs, w.say (.stopTimer i)⟩) := by
  rw [call_lib (host I) find_hal_stop_timer]
  cases i <;> rfl

@[csem] theorem host_app_get_battery_level (b : Byte) (bs : List Byte) (h : w.bats = b :: bs) : call (host I) Src.prog L (k + 1) "app.get_battery_level" [] ⟨g, fs, w⟩ =
    .ok (.int .u8 b.toNat, ⟨g, fs, { w with bats := bs, ev := w.ev ++ [.getBattery] }⟩) := by
  rw [call_lib (host I) find_app_get_battery_level]
  show popBat _ = _
  unfold popBat
  simp only [h]
  rfl

/-! ## Bytes read by the environment -/

theorem read_bytes {m : Mem World} {r : Ref} {l : Bytes} (h : loads r l.length m = .ok (l.map byteVal, m)) : readBytes r l.length m = .ok (l, m) := by
  unfold readBytes
  have hm : (l.map byteVal).mapM valByte? = some l := by
    clear h
    induction l with
    | nil => rfl
    | cons a l ih =>
      have e : valByte? (byteVal a) = some a := by simp [byteVal, valByte?]
      simp [List.mapM_cons, e, ih]
  simp only [M.bind, h, hm]
  rfl

theorem block_toList (b : Block) : toBlock? b.toList = some b := by
  have hl : b.toList.length = 16 := by simp
  unfold toBlock?
  rw [dif_pos (by rw [List.take_of_length_le (by omega)]; exact hl)]
  congr 1
  apply Vector.toArray_inj.mp
  show (b.toList.take 16).toArray = b.toArray
  rw [List.take_of_length_le (by omega)]
  exact Array.toArray_toList

theorem read_block {m : Mem World} {r : Ref} {b : Block} (h : loads r 16 m = .ok (b.toList.map byteVal, m)) : readBlock r m = .ok (b, m) := by
  unfold readBlock
  have hl : b.toList.length = 16 := by simp
  have h1 := read_bytes (m := m) (r := r) (l := b.toList) (by rw [hl]; exact h)
  rw [hl] at h1
  have h2 := block_toList b
  simp only [M.bind, h1, h2]
  rfl

theorem host_radio_tx (t : Ty) (n : Int) (r : Ref) (l : Bytes) (hn : n = l.length) (hl : l.length < 256)
    (h : loads r l.length (⟨g, fs, w⟩ : Mem World) = .ok (l.map byteVal, ⟨g, fs, w⟩)) :
    call (host I) Src.prog L (k + 1) "radio.tx" [.ptr r, .int t n] ⟨g, fs, w⟩ = .ok (.null, ⟨g, fs, w.say (.tx l)⟩) := by
  subst hn
  rw [call_lib (host I) find_radio_tx]
  show M.bind (readBytes r ((l.length : Int) % 256).toNat) (fun l => emitV (.tx l)) _ = _
  have : ((l.length : Int) % 256).toNat = l.length := by omega
  rw [this]
  simp only [M.bind, read_bytes h]
  rfl

/-- The content of a cipher context. -/
def ctxVal (b : Block) : Val := .opaque (keyInts b)

theorem ints_key (b : Block) : intsKey? (keyInts b) = some b := by
  unfold intsKey? keyInts
  rw [List.map_map]
  have : (b.toList.map (BitVec.ofInt 8 ∘ fun c : Byte => (c.toNat : Int))) = b.toList := by
    conv => rhs; rw [← List.map_id b.toList]
    apply List.map_congr_left
    intro a _
    simp
  rw [this, block_toList]

theorem host_aes_new (r : Ref) (b : Block) (h : loads r 16 (⟨g, fs, w⟩ : Mem World) = .ok (b.toList.map byteVal, ⟨g, fs, w⟩)) :
    call (host I) Src.prog L (k + 1) "hal.crypto_aes_create_context" [.ptr r] ⟨g, fs, w⟩ = .ok (.opaque (keyInts b), ⟨g, fs, w.say (.aesNew b)⟩) := by
  rw [call_lib (host I) find_hal_crypto_aes_create_context]
  show M.bind (readBlock r) (fun k => M.bind (emit (.aesNew k)) fun _ => M.pure (Val.opaque (keyInts k))) _ = _
  simp only [M.bind, read_block h]
  rfl

theorem host_aes_enc (key : Block) (d s : Ref) (b : Block) (m' : Mem World) (h : loads s 16 (⟨g, fs, w⟩ : Mem World) = .ok (b.toList.map byteVal, ⟨g, fs, w⟩))
    (hs : stores d ((I.env.aes key b).toList.map byteVal) ⟨g, fs, w.say (.aesEncrypt b)⟩ = .ok ((), m')) :
    call (host I) Src.prog L (k + 1) "hal.crypto_aes_encrypt" [.opaque (keyInts key), .ptr d, .ptr s] ⟨g, fs, w⟩ = .ok (.null, m') := by
  rw [call_lib (host I) find_hal_crypto_aes_encrypt]
  show M.bind (ofOption .stuck (intsKey? (keyInts key))) (fun k => M.bind (readBlock s) fun b => M.bind (emit (.aesEncrypt b)) fun _ =>
    M.bind (writeBytes d (I.env.aes k b).toList) fun _ => M.pure Val.null) _ = _
  rw [ints_key]
  show M.bind (readBlock s) (fun b => M.bind (emit (.aesEncrypt b)) fun _ => M.bind (writeBytes d (I.env.aes key b).toList) fun _ => M.pure Val.null) _ = _
  rw [bind_andThen, read_block h, andThen_ok]
  show andThen (stores d ((I.env.aes key b).toList.map byteVal) ⟨g, fs, w.say (.aesEncrypt b)⟩) (fun _ => M.pure Val.null) = _
  rw [hs]
  rfl

theorem host_cmac_new (r : Ref) (b : Block) (h : loads r 16 (⟨g, fs, w⟩ : Mem World) = .ok (b.toList.map byteVal, ⟨g, fs, w⟩)) :
    call (host I) Src.prog L (k + 1) "hal.crypto_cmac_create_context" [.ptr r] ⟨g, fs, w⟩ = .ok (.opaque [], ⟨g, fs, { w.say (.cmacNew b) with cmac := (b, []) }⟩) := by
  rw [call_lib (host I) find_hal_crypto_cmac_create_context]
  show M.bind (readBlock r) (fun k => M.bind (emit (.cmacNew k)) fun _ => fun m => .ok (Val.opaque [], { m with io := { m.io with cmac := (k, []) } })) _ = _
  simp only [M.bind, read_block h]
  rfl

theorem host_cmac_update (r : Ref) (t : Ty) (n : Int) (q : List Int) (l : Bytes) (hn : n = l.length)
    (h : loads r l.length (⟨g, fs, w⟩ : Mem World) = .ok (l.map byteVal, ⟨g, fs, w⟩)) :
    call (host I) Src.prog L (k + 1) "hal.crypto_cmac_update" [.opaque q, .ptr r, .int t n] ⟨g, fs, w⟩ =
    .ok (.null, ⟨g, fs, { w.say (.cmacUpdate l) with cmac := (w.cmac.1, w.cmac.2 ++ l) }⟩) := by
  subst hn
  rw [call_lib (host I) find_hal_crypto_cmac_update]
  show M.bind (readBytes r (l.length : Int).toNat) (fun l => M.bind (emit (.cmacUpdate l)) fun _ => fun m =>
    .ok (Val.null, { m with io := { m.io with cmac := (m.io.cmac.1, m.io.cmac.2 ++ l) } })) _ = _
  rw [Int.toNat_natCast]
  simp only [M.bind, read_bytes h]
  rfl

theorem host_cmac_finish (d : Ref) (q : List Int) (m' : Mem World)
    (hs : stores d ((I.env.cmac w.cmac.1 w.cmac.2).toList.map byteVal) ⟨g, fs, w.say .cmacFinish⟩ = .ok ((), m')) :
    call (host I) Src.prog L (k + 1) "hal.crypto_cmac_finish" [.opaque q, .ptr d] ⟨g, fs, w⟩ = .ok (.null, m') := by
  rw [call_lib (host I) find_hal_crypto_cmac_finish]
  show andThen (stores d ((I.env.cmac w.cmac.1 w.cmac.2).toList.map byteVal) ⟨g, fs, w.say .cmacFinish⟩) (fun _ => M.pure Val.null) = _
  rw [hs]
  rfl

end
end Uwan.C
