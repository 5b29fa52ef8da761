import Verif.Lemmas.CodeEvent
import Verif.Lemmas.CodeUplink
import Verif.Lemmas.Step

/-! # One operation of the model and the call of the program text that performs it -/

namespace Uwan.C

theorem Op.answered_valid (I : Input) (rands : List Nat) (bat : Nat → Byte) (op : Op) (h : op.Valid) : (Op.answered I rands bat op).Valid := by
  cases op <;> exact h

section
variable (I : Input) (L k : Nat) (s : St) (x : Extra) (w : World)

theorem run_timer_off (fs : List Objs) (hp : s.phase = .notInit) (i : TimerId) : call (host I) Src.prog L (k + 2) "uwan_timer_callback" [enumVal (TimerId.num i)] ⟨enc s x, fs, w⟩ =
    .ok (.null, ⟨enc (timerCallback s i).1 x, fs, w.did w.cmac (timerCallback s i).2⟩) := by
  rw [call_fun (host I) find_uwan_timer_callback]
  unfold Src.uwan_timer_callback timerCallback
  cases i <;> crun [hp, timer_num_rx1, timer_num_rx2] <;> simp [World.did]

theorem loads_arg (o : String) (l : Bytes) (m : Mem World) (n : Nat) (hn : l.length = n) (h : getObj m none o = some (l.map byteVal)) :
    loads ⟨none, o, 0⟩ n m = .ok (l.map byteVal, m) := by
  have := loads_bytes (m := m) (fr := none) (o := o) (l := l) h (off := 0) (n := n) (by omega)
  rw [show ((0 : Nat) : Int) = 0 from rfl] at this
  rw [this, List.drop_zero, List.take_of_length_le (by omega)]

/-- What the call leaves of the memory outside the model. -/
structure After (s' : St) (x x' : Extra) (w w' : World) (ev : List Ev) : Prop where
  said : w'.ev = w.ev ++ ev
  clock : x'.clock = x.clock
  args : x'.args = x.args
  queue : s'.mac.queue.length + x'.macTail.length = 15

/-- A call of the program text in memory `enc s x` does what the model says about the operation. -/
theorem step_text (hL : 256 ≤ L) (hi : Inv s) (hq : s.mac.queue.length + x.macTail.length = 15) (op : Op) (hv : op.Valid)
    (hn : 2 ≤ w.rands.length) (hlt : ∀ r ∈ w.rands, r < 2147483648) (hw : 15 < w.bats.length)
    (hargs : ∀ s' q o v, (o, v) ∈ Op.args op → (enc s' { x with macTail := q }).get o = some v)
    (hcbs : ∀ c, op = .macSetHandlers (some c) → s.mac.cbs.getD x.cbs = c) :
    (∃ (bat : Answers w.bats) (r : Ret) (s' : St) (ev : List Ev) (x' : Extra) (w' : World), step I.env s (Op.answered I w.rands bat.1 op) = .ok (r, s', ev) ∧
      call (host I) Src.prog L (k + 9) (Op.fn op) (Op.vals op) ⟨enc s x, [], w⟩ = .ok (Ret.val r, ⟨enc s' x', [], w'⟩) ∧ After s' x x' w w' ev) ∨
    (∃ (bat : Answers w.bats) (u : UB), step I.env s (Op.answered I w.rands bat.1 op) = .error u ∧
      call (host I) Src.prog L (k + 9) (Op.fn op) (Op.vals op) ⟨enc s x, [], w⟩ = .error Fault.null) := by
  have hdr := hi.dr
  have hdd := hi.defaultDr
  have hmax := hi.chan.max_le
  have hqueue := hi.queue
  have hnop : w.ev = w.ev ++ [] := by simp
  have hd : w = w.did w.cmac [] := by simp [World.did]
  cases op with
  | init r =>
    exact .inl ⟨.first hw, _, _, _, _, _, rfl, run_uwan_init I L (k + 5) s x [] w (by omega) r, rfl, rfl, rfl, by
      rw [uwanInit_eq]; simpa using hq⟩
  | setOtaaKeys d a key =>
    refine .inl ⟨.first hw, _, _, _, x, w, rfl, run_uwan_set_otaa_keys I L (k + 7) s x [] w d a key _ _ _ ?_ ?_ ?_, hnop, rfl, rfl, hq⟩
    · exact fun s' f w => loads_arg "arg1" d.toList _ 8 (by simp) (hargs s' x.macTail _ _ (by simp [Op.args]))
    · exact fun s' f w => loads_arg "arg2" a.toList _ 8 (by simp) (hargs s' x.macTail _ _ (by simp [Op.args]))
    · exact fun s' f w => loads_arg "arg3" key.toList _ 16 (by simp) (hargs s' x.macTail _ _ (by simp [Op.args]))
  | setSession addr up down n a =>
    refine .inl ⟨.first hw, _, _, _, x, w, rfl, run_uwan_set_session I L (k + 7) s x [] w addr up down n a _ _ _ _ _ (by omega) ?_ ?_, hnop, rfl, rfl, hq⟩
    · exact fun s' f w => loads_arg "arg1" n.toList _ 16 (by simp) (hargs s' x.macTail _ _ (by simp [Op.args]))
    · exact fun s' f w => loads_arg "arg2" a.toList _ 16 (by simp) (hargs s' x.macTail _ _ (by simp [Op.args]))
  | enableChannel i en =>
    exact .inl ⟨.first hw, _, _, _, x, w, rfl, run_uwan_enable_channel (host I) L (k + 8) s x [] w _ (by omega) i.toNat i.isLt (boolVal en) en (by cases en <;> rfl) (by omega), hnop, rfl, rfl, hq⟩
  | setChannel i f =>
    have := run_uwan_set_channel (host I) L (k + 7) s x [] w .u8 (by omega) i.toNat i.isLt f.toNat .u32 (by omega) (by have := f.isLt; omega) (by omega)
    rw [BitVec.ofInt_natCast, BitVec.ofNat_toNat, BitVec.setWidth_eq] at this
    exact .inl ⟨.first hw, _, _, _, x, w, rfl, this, hnop, rfl, rfl, hq⟩
  | setRx2 f dr =>
    have hdr : dr < 256 := hv
    have := run_uwan_set_rx2 (host I) L (k + 7) s x [] w .u32 f.toNat .u32 dr (by omega) (by have := f.isLt; omega) (by omega) (by omega)
    rw [BitVec.ofInt_natCast, BitVec.ofNat_toNat, BitVec.setWidth_eq, Int.toNat_natCast] at this
    refine .inl ⟨.first hw, _, _, _, x, w, rfl, this, hnop, rfl, rfl, ?_⟩
    show (setRx2 s f dr).2.mac.queue.length + _ = _
    unfold setRx2
    split <;> first | exact hq | (split <;> exact hq)
  | join _ _ =>
    match hr : w.rands, hn with
    | r1 :: r2 :: rs, _ =>
      obtain ⟨e, s', ev, h, hjc⟩ := uwanJoin_cases I.env hi r1 r2
      obtain ⟨w', hc, hev, -⟩ := run_uwan_join I L (k + 5) s x [] w hL hi r1 r2 rs hr (hlt _ (by simp [hr])) (hlt _ (by simp [hr])) e s' ev h
      refine .inl ⟨.first hw, .err e, s', ev, x, w', ?_, hc, hev, rfl, rfl, ?_⟩
      · show (do let (e, s', ev) ← uwanJoin I.env s r1 r2; .ok (Ret.err e, s', ev)) = _
        rw [h]
        rfl
      · cases hjc <;> exact hq
  | send p l c _ =>
    match hr : w.rands, hn with
    | r1 :: r2 :: rs, _ =>
      obtain ⟨e, s', ev, h, -⟩ := sendFrame_cases I.env hi p l c r1
      obtain ⟨w', q, hc, hev, -, hq'⟩ := run_uwan_send_frame I L (k + 5) s x [] w hL hi r1 (r2 :: rs) hr (hlt _ (by simp [hr])) p ⟨none, "arg1", 0⟩ l (by have : l.length ≤ 255 := hv; omega) c
        (fun s' q f w => loads_arg "arg1" l _ _ rfl (hargs s' q _ _ (by simp [Op.args]))) e s' ev h
      refine .inl ⟨.first hw, .err e, s', ev, { x with macTail := q }, w', ?_, hc, hev, rfl, rfl, hq'.trans hq⟩
      show (do let (e, s', ev) ← sendFrame I.env s p l c r1; .ok (Ret.err e, s', ev)) = _
      rw [h]
      rfl
  | timer i =>
    have hmq : (timerCallback s i).1.mac = s.mac := by
      unfold timerCallback
      repeat' split
      all_goals rfl
    refine .inl ⟨.first hw, _, _, _, x, w.did w.cmac (timerCallback s i).2, rfl, ?_, rfl, rfl, rfl, by rw [hmq]; exact hq⟩
    by_cases hp : s.phase = .notInit
    · exact run_timer_off I L (k + 7) s x w [] hp i
    · exact run_uwan_timer_callback I L (k + 7) s x [] w (hi.region hp) i
  | event m _ =>
    rcases run_evt_handler I L k s x [] w m (by omega) hi hq hw with ⟨bat, s', ev, x', w', h, hc, hev, hk, hq'⟩ | ⟨u, h, hc⟩
    · refine .inl ⟨bat, .unit, s', ev, x', w', ?_, hc, hev, hk.2.1, hk.2.2, hq'⟩
      show (do let (s', ev) ← evtHandler I.env (I.oracle bat) s m; .ok (Ret.unit, s', ev)) = _
      rw [h]
      rfl
    · refine .inr ⟨.first hw, u, ?_, hc⟩
      show (do let (s', ev) ← evtHandler I.env (I.oracle (Answers.first hw).1) s m; .ok (Ret.unit, s', ev)) = _
      rw [h]
      rfl
  | setDr dr =>
    have hdr : dr < 256 := hv
    refine .inl ⟨.first hw, _, _, _, x, w, rfl, run_uwan_set_dr (host I) L (k + 7) s x [] w dr (by omega), hnop, rfl, rfl, ?_⟩
    show (setDr s dr).mac.queue.length + _ = _
    unfold setDr
    split <;> exact hq
  | setNbTrans n =>
    refine .inl ⟨.first hw, _, _, _, x, w, rfl, run_uwan_set_nb_trans (host I) L (k + 7) s x [] w n, hnop, rfl, rfl, ?_⟩
    show (setNbTrans s n).2.mac.queue.length + _ = _
    unfold setNbTrans setNbTransInt
    split <;> (try split) <;> exact hq
  | setMaxEirp e => exact .inl ⟨.first hw, _, _, _, x, w, rfl, run_uwan_set_max_eirp (host I) L (k + 8) s x [] w e, hnop, rfl, rfl, hq⟩
  | setTxPower p =>
    refine .inl ⟨.first hw, _, _, _, x, w, rfl, run_uwan_set_tx_power (host I) L (k + 6) s x [] w p, hnop, rfl, rfl, ?_⟩
    show (setTxPower s p).2.mac.queue.length + _ = _
    unfold setTxPower setTxPowerInt
    split <;> (try split) <;> exact hq
  | setRx1DrOffset o =>
    have := run_uwan_set_rx1_dr_offset (host I) L (k + 7) s x [] w .u8 o.toNat (by omega) (by have := o.isLt; omega)
    rw [BitVec.ofInt_natCast, BitVec.ofNat_toNat, BitVec.setWidth_eq] at this
    refine .inl ⟨.first hw, _, _, _, x, w, rfl, this, hnop, rfl, rfl, ?_⟩
    show (setRx1DrOffset s o).2.mac.queue.length + _ = _
    unfold setRx1DrOffset
    split <;> exact hq
  | setRx1Delay d =>
    have := run_uwan_set_rx1_delay (host I) L (k + 8) s x [] w .u8 d.toNat (by omega) (by have := d.isLt; omega)
    rw [BitVec.ofInt_natCast, BitVec.ofNat_toNat, BitVec.setWidth_eq] at this
    refine .inl ⟨.first hw, _, _, _, x, w, rfl, this, hnop, rfl, rfl, ?_⟩
    show (setRx1Delay s d).2.mac.queue.length + _ = _
    unfold setRx1Delay
    split <;> exact hq
  | adrEnable en => exact .inl ⟨.first hw, _, _, _, x, w, rfl, run_uwan_adr_enable (host I) L (k + 8) s x [] w en, hnop, rfl, rfl, hq⟩
  | adrSetupAck l d => exact .inl ⟨.first hw, _, _, _, x, w, rfl, run_uwan_adr_setup_ack (host I) L (k + 8) s x [] w l d, hnop, rfl, rfl, hq⟩
  | macSetHandlers c =>
    cases c with
    | none => exact .inl ⟨.first hw, _, _, _, _, w, rfl, run_uwan_mac_set_handlers_null (host I) L (k + 8) s x [] w, hnop, rfl, rfl, hq⟩
    | some c =>
      have hc := hcbs c rfl
      have h : s.mac.cbs = some c ∨ (s.mac.cbs = none ∧ x.cbs = c) := by
        cases hm : s.mac.cbs with
        | none => rw [hm] at hc; exact .inr ⟨rfl, hc⟩
        | some c' => rw [hm] at hc; exact .inl (congrArg some hc)
      exact .inl ⟨.first hw, _, _, _, x, w, rfl, run_uwan_mac_set_handlers (host I) L (k + 8) s x [] w c h, hnop, rfl, rfl, hq⟩
  | linkCheckReq =>
    refine .inl ⟨.first hw, _, _, _, _, w, rfl, run_uwan_mac_link_check_req (host I) L (k + 6) s x [] w hq, hnop, (kept_eat x 1).2.1, (kept_eat x 1).2.2, enqueue_fits s x 0x02 [] hq⟩
  | deviceTimeReq =>
    refine .inl ⟨.first hw, _, _, _, _, w, rfl, run_uwan_mac_device_time_req (host I) L (k + 6) s x [] w hq, hnop, (kept_eat x 1).2.1, (kept_eat x 1).2.2, enqueue_fits s x 0x0D [] hq⟩
  | isJoined => exact .inl ⟨.first hw, _, _, _, x, w, rfl, run_uwan_is_joined (host I) L (k + 8) s x [] w, hnop, rfl, rfl, hq⟩
  | getMaxPayload => exact .inl ⟨.first hw, _, _, _, x, w, rfl, run_uwan_get_max_payload_size I L (k + 6) s x [] w (by omega) (by omega) (by omega), hnop, rfl, rfl, hq⟩

end
end Uwan.C
