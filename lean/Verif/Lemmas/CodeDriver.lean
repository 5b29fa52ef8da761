import Verif.Lemmas.CodeSx127xB
import Verif.Spec.TextDriver

/-! # Calls of the SX127x driver, as the program text performs them -/

namespace Uwan.C.Drv

/-- The variables of the driver in a state of the model. -/
def statics (s : Sx127x.St) : Objs := [
  ("sf_table", [.int .u8 96, .int .u8 112, .int .u8 128, .int .u8 144, .int .u8 160, .int .u8 176, .int .u8 192]),
  ("bw_table", [.int .u8 112, .int .u8 128, .int .u8 144]),
  ("cr_table", [.int .u8 2, .int .u8 4, .int .u8 6, .int .u8 8]),
  ("hal", [if s.hal.isSome then globPtr "radio_hal" else .null]),
  ("rssi_offset", [.int .i16 s.rssiOffset.toInt]),
  ("user_evt_handler", [optFn s.handler "evt_handler"]),
  ("sx127x_dev.init", [.fn "sx127x_init"]),
  ("sx127x_dev.sleep", [.fn "sx127x_sleep"]),
  ("sx127x_dev.set_frequency", [.fn "sx127x_set_freq"]),
  ("sx127x_dev.set_power", [.fn "sx127x_set_power"]),
  ("sx127x_dev.set_public_network", [.fn "sx127x_set_public_network"]),
  ("sx127x_dev.setup", [.fn "sx127x_setup"]),
  ("sx127x_dev.tx", [.fn "sx127x_tx"]),
  ("sx127x_dev.rx", [.fn "sx127x_rx"]),
  ("sx127x_dev.read_packet", [.fn "sx127x_read_packet"]),
  ("sx127x_dev.rand", [.fn "sx127x_rand"]),
  ("sx127x_dev.irq_handler", [.fn "sx127x_irq_handler"]),
  ("sx127x_dev.set_evt_handler", [.fn "sx127x_set_evt_handler"])]

theorem statics_zero : statics .zero = Sx127xSrc.sx127xVars := rfl

theorem halAt_statics (h : Hal) (o : BitVec 16) (b : Bool) (e : Objs) : HalAt (statics ⟨some h, o, b⟩ ++ radioObjs h ++ e) h := by
  constructor <;> rfl

theorem halAt_init (s : Sx127x.St) (h : Hal) (e : Objs) : HalAt ((statics s ++ radioObjs h ++ e).put "hal" [globPtr "radio_hal"]) h := by
  constructor <;> rfl

variable (ans : ChipAns) (L k : Nat)

/-- Whether the call gets on with what it has. -/
def okNow (up : Bool) : DOp → Bool
  | .init h _ => h.isSome
  | op => up || !Needs op

/-- Whether the driver has a HAL afterwards. -/
def upNext (up : Bool) : DOp → Bool
  | .init h _ => up || h.isSome
  | _ => up

/-- The text and the model agree on a call: it faults where the model does; otherwise it makes the same calls of the HAL, returns the same, and leaves the same variables. -/
def Agree (s : Sx127x.St) (h : Hal) (op : DOp) : Prop :=
  match follow ans (Sx127x.step s op) ⟨[], false⟩ with
  | .ok ((r, s'), w') => ∃ v m, dturn ans L (k + 6) (statics s) h op = .ok (v, m) ∧ m.glob.take Sx127xSrc.sx127xVars.length = statics s' ∧
      m.io.tr = w'.tr ∧ dret op v m = r ∧ okNow s.hal.isSome op = true ∧ s'.hal.isSome = upNext s.hal.isSome op ∧ ∀ h', s'.hal = some h' → h' = halNow h op
  | .error _ => okNow s.hal.isSome op = false ∧ dturn ans L (k + 6) (statics s) h op = .error .null

variable {ans L k}

theorem agree_of {s s' : Sx127x.St} {h : Hal} {op : DOp} {r : DRet} {w' : Wire} (hf : follow ans (Sx127x.step s op) ⟨[], false⟩ = .ok ((r, s'), w')) {v : Val} {m : Mem Wire}
    (h1 : dturn ans L (k + 6) (statics s) h op = .ok (v, m)) (h2 : m.glob.take Sx127xSrc.sx127xVars.length = statics s') (h3 : m.io.tr = w'.tr) (h4 : dret op v m = r)
    (h5 : okNow s.hal.isSome op = true := by rfl) (h6 : s'.hal.isSome = upNext s.hal.isSome op := by rfl) (h7 : ∀ h', s'.hal = some h' → h' = halNow h op := by intro _ e; first | (cases e; done) | (cases e; rfl)) :
    Agree ans L k s h op := by
  unfold Agree
  rw [hf]
  exact ⟨v, m, h1, h2, h3, h4, h5, h6, h7⟩

theorem agree_null {s : Sx127x.St} {h : Hal} {op : DOp} {u : UB} (hf : Sx127x.step s op = .fail u) (h1 : dturn ans L (k + 6) (statics s) h op = .error .null)
    (h2 : okNow s.hal.isSome op = false := by rfl) : Agree ans L k s h op := by
  unfold Agree
  rw [hf]
  exact ⟨h2, h1⟩

theorem agree_null_all (o : BitVec 16) (b : Bool) (h : Hal) (op : DOp) : (match op with | .init _ _ => False | .setEvtHandler _ => False | .setPower _ => False | _ => True) →
    Agree ans L k ⟨none, o, b⟩ h op := by
  intro hop
  cases op with
  | init => exact hop.elim
  | setEvtHandler => exact hop.elim
  | setPower => exact hop.elim
  | setPublicNetwork p => cases p <;> exact agree_null rfl rfl
  | _ => exact agree_null rfl rfl

theorem bytesOf_map (l : Bytes) : bytesOf (l.map byteVal) = l := by
  unfold bytesOf
  rw [List.map_map]
  conv => rhs; rw [← List.map_id l]
  apply List.map_congr_left
  intro b _
  show BitVec.ofInt 8 (b.toNat : Int) = b
  apply BitVec.eq_of_toNat_eq
  simp

theorem agree_up (hL : 256 ≤ L) (h : Hal) (o : BitVec 16) (b : Bool) (op : DOp) (hv : op.Valid) : Agree ans L k ⟨some h, o, b⟩ h op := by
  have hg := fun e => halAt_statics h o b e
  cases op with
  | init h' opts =>
    cases h' with
    | none => exact agree_null rfl rfl
    | some h' =>
      obtain ⟨r, w', f, c⟩ := run_init (L := L) (k := k + 2) [] ans ⟨[], false⟩ (halAt_init ⟨some h, o, b⟩ h' []) _ (.inr rfl) rfl hL
      refine agree_of (r := .bool r) (s' := ⟨some h', o, b⟩) (w' := w') (by simp only [Sx127x.step]; rw [follow_bind, f]; rfl) c rfl rfl ?_
      cases r <;> rfl
  | sleep =>
    obtain ⟨w', f, c⟩ := run_sleep (L := L) (k := k + 2) [] ans ⟨[], false⟩ (hg [])
    exact agree_of (r := .unit) (s' := ⟨some h, o, b⟩) (w' := w') (by simp only [Sx127x.step]; rw [follow_bind, f]; rfl) c rfl rfl rfl
  | setFrequency q =>
    obtain ⟨w', f, c⟩ := call_setFreq (L := L) (k := k + 5) [] ans ⟨[], false⟩ .u32 (hg []) q.toNat
    have hq : BitVec.ofInt 32 (q.toNat : Int) = q := by
      apply BitVec.eq_of_toNat_eq
      simp
    rw [hq] at f
    exact agree_of (r := .unit) (s' := ⟨some h, o, b⟩) (w' := w') (by simp only [Sx127x.step]; rw [follow_bind, f]; rfl) c rfl rfl rfl
  | setPower p =>
    by_cases hp : p.toInt < -4 ∨ p.toInt > 17
    · have c := run_power_no (L := L) (k := k + 5) (g := statics ⟨some h, o, b⟩ ++ radioObjs h ++ []) [] ans ⟨[], false⟩ p hp
      exact agree_of (r := .bool false) (s' := ⟨some h, o, b⟩) (w' := ⟨[], false⟩) (by simp only [Sx127x.step, Sx127x.setPower]; rw [if_pos hp]; rfl) c rfl rfl rfl
    · obtain ⟨off, w', f, c⟩ := run_power (L := L) (k := k + 3) [] ans ⟨[], false⟩ (hg []) p hp o o rfl
      exact agree_of (r := .bool true) (s' := ⟨some h, off, b⟩) (w' := w') (by simp only [Sx127x.step]; rw [follow_bind, f]; rfl) c rfl rfl rfl
  | setPublicNetwork p =>
    have c := run_sync (L := L) (k := k + 3) [] ans ⟨[], false⟩ (hg []) p
    exact agree_of (r := .unit) (s' := ⟨some h, o, b⟩) (by simp only [Sx127x.step]; rw [follow_bind, follow_sync]; rfl) c rfl rfl rfl
  | setup p =>
    obtain ⟨w', f, c⟩ := run_setup (L := L) (k := k + 2) [] ans ⟨[], false⟩ (hg (dcall (.setup p)).2.2) ⟨rfl, rfl, rfl⟩ p ⟨rfl, rfl, rfl, rfl, rfl, rfl⟩
    exact agree_of (r := .unit) (s' := ⟨some h, o, b⟩) (w' := w') (by simp only [Sx127x.step]; rw [follow_bind, f]; rfl) c rfl rfl rfl
  | tx buf =>
    obtain ⟨w', f, c⟩ := run_tx (L := L) (k := k + 2) [] ans ⟨[], false⟩ (hg (dcall (.tx buf)).2.2) buf rfl hv hL
    exact agree_of (r := .unit) (s' := ⟨some h, o, b⟩) (w' := w') (by simp only [Sx127x.step]; rw [follow_bind, f]; rfl) c rfl rfl rfl
  | rx len symb tmo =>
    obtain ⟨w', f, c⟩ := run_rx (L := L) (k := k + 2) [] ans ⟨[], false⟩ (hg []) len symb tmo
    exact agree_of (r := .unit) (s' := ⟨some h, o, b⟩) (w' := w') (by simp only [Sx127x.step]; rw [follow_bind, f]; rfl) c rfl rfl rfl
  | readPacket buf =>
    obtain ⟨p, w', f, _, _, c⟩ := run_packet (L := L) (k := k + 2) [] ans ⟨[], false⟩ (hg (dcall (.readPacket buf)).2.2) hL o rfl buf hv rfl rfl rfl rfl rfl
    refine agree_of (r := .pkt p) (s' := ⟨some h, o, b⟩) (w' := w') (by simp only [Sx127x.step]; rw [follow_bind, f]; rfl) c rfl rfl ?_
    show DRet.pkt ⟨bytesOf (p.buf.map byteVal), ((p.size : Nat) : Int).toNat, BitVec.ofInt 16 p.rssi.toInt, BitVec.ofInt 8 p.snr.toInt⟩ = _
    rw [bytesOf_map, BitVec.ofInt_toInt, BitVec.ofInt_toInt, Int.toNat_natCast]
  | rand =>
    obtain ⟨r, ub, tr', f, c⟩ := run_rand (L := L) (k := k + 2) [] ans (hg []) hL []
    refine agree_of (r := .rand r ub) (s' := ⟨some h, o, b⟩) (w' := ⟨tr', false⟩) (by simp only [Sx127x.step]; rw [follow_bind, f]; rfl) c rfl rfl ?_
    show DRet.rand (BitVec.ofInt 32 (r.toNat : Int)) ub = _
    have hq : BitVec.ofInt 32 (r.toNat : Int) = r := by
      apply BitVec.eq_of_toNat_eq
      simp
    rw [hq]
  | irqHandler =>
    obtain ⟨r, w', f, c⟩ := run_irq (L := L) (k := k + 3) [] ans ⟨[], false⟩ (hg []) b rfl
    refine agree_of (r := .mask r) (s' := ⟨some h, o, b⟩) (w' := w') (by simp only [Sx127x.step]; rw [follow_bind, f]; rfl) c rfl rfl ?_
    show DRet.mask (BitVec.ofInt 8 (r.toNat : Int)) = _
    have hq : BitVec.ofInt 8 (r.toNat : Int) = r := by
      apply BitVec.eq_of_toNat_eq
      simp
    rw [hq]
  | setEvtHandler p =>
    have c := run_evt (L := L) (k := k + 5) [] ans ⟨[], false⟩ (statics ⟨some h, o, b⟩ ++ radioObjs h ++ []) _ rfl p b rfl
    exact agree_of (r := .unit) (s' := ⟨some h, o, p⟩) (w' := ⟨[], false⟩) rfl c rfl rfl rfl

theorem write_null {g : Objs} (fs : List Objs) (w : Wire) (t t' : Ty) (hg : g.get "hal" = some [.null]) (x y : Int) :
    call (chipHost ans) dprog L (k + 2) "write_reg" [.int t x, .int t' y] ⟨g, fs, w⟩ = .error .null := by
  rw [dcall_fun _ _ _ (f := Sx127xSrc.write_reg) (by rfl)]
  simp only [Sx127xSrc.write_reg]
  crun [hg]

theorem power_null (h : Hal) (o : BitVec 16) (b : Bool) (p : BitVec 8) (hp : ¬ (p.toInt < -4 ∨ p.toInt > 17)) :
    dturn ans L (k + 6) (statics ⟨none, o, b⟩) h (.setPower p) = .error .null := by
  generalize hg0 : statics ⟨none, o, b⟩ ++ radioObjs (halNow h (.setPower p)) ++ [] = g
  have ho : g.get "rssi_offset" = some [.int .i16 o.toInt] := by rw [← hg0]; rfl
  have hh : ∀ v, (g.put "rssi_offset" v).get "hal" = some [.null] := fun v => by
    rw [Objs.get_put_other _ _ _ _ (by decide), ← hg0]
    rfl
  show call (chipHost ans) dprog L (k + 6) "sx127x_set_power" [i8Val p] ⟨statics ⟨none, o, b⟩ ++ radioObjs (halNow h (.setPower p)) ++ [], [], ⟨[], false⟩⟩ = _
  rw [hg0, dcall_fun _ _ _ (f := Sx127xSrc.sx127x_set_power) (by rfl)]
  simp only [Sx127xSrc.sx127x_set_power]
  have hn := power_cases p.toInt (by omega) (by omega)
  have hw := fun v fs w t t' a d => write_null (ans := ans) (L := L) (k := k + 3) fs w t t' (hh v) a d
  simp only [i8Val]
  generalize p.toInt = n at hn
  rcases hn with rfl | rfl | rfl | rfl | rfl | rfl | rfl | rfl | rfl | rfl | rfl | rfl | rfl | rfl | rfl | rfl | rfl | rfl | rfl | rfl | rfl | rfl <;>
    drun [ho, hw]

theorem agree_down (hL : 256 ≤ L) (h : Hal) (o : BitVec 16) (b : Bool) (op : DOp) : Agree ans L k ⟨none, o, b⟩ h op := by
  cases op with
  | init h' opts =>
    cases h' with
    | none => exact agree_null rfl rfl
    | some h' =>
      obtain ⟨r, w', f, c⟩ := run_init (L := L) (k := k + 2) [] ans ⟨[], false⟩ (halAt_init ⟨none, o, b⟩ h' []) _ (.inl rfl) rfl hL
      refine agree_of (r := .bool r) (s' := ⟨some h', o, b⟩) (w' := w') (by simp only [Sx127x.step]; rw [follow_bind, f]; rfl) c rfl rfl ?_
      cases r <;> rfl
  | setPower p =>
    by_cases hp : p.toInt < -4 ∨ p.toInt > 17
    · have c := run_power_no (L := L) (k := k + 5) (g := statics ⟨none, o, b⟩ ++ radioObjs h ++ []) [] ans ⟨[], false⟩ p hp
      exact agree_of (r := .bool false) (s' := ⟨none, o, b⟩) (w' := ⟨[], false⟩) (by simp only [Sx127x.step]; rw [if_pos hp]; rfl) c rfl rfl rfl (by simp only [okNow, Needs, Option.isSome_none, Bool.false_or, Bool.not_eq_true', decide_eq_false_iff_not]; omega)
    · exact agree_null (u := .nullDeref) (by simp only [Sx127x.step]; rw [if_neg hp]) (power_null h o b p hp)
        (by simp only [okNow, Needs, Option.isSome_none, Bool.false_or, Bool.not_eq_false', decide_eq_true_eq]; omega)
  | setEvtHandler p =>
    have c := run_evt (L := L) (k := k + 5) [] ans ⟨[], false⟩ (statics ⟨none, o, b⟩ ++ radioObjs h ++ []) _ rfl p b rfl
    exact agree_of (r := .unit) (s' := ⟨none, o, p⟩) (w' := ⟨[], false⟩) rfl c rfl rfl rfl
  | _ => exact agree_null_all _ _ _ _ trivial

theorem agree_all (hL : 256 ≤ L) (s : Sx127x.St) (h : Hal) (hs : ∀ h', s.hal = some h' → h' = h) (op : DOp) (hv : op.Valid) : Agree ans L k s h op := by
  obtain ⟨hal, o, b⟩ := s
  cases hal with
  | none => exact agree_down hL h o b op
  | some h' =>
    obtain rfl := hs h' rfl
    exact agree_up hL h' o b op hv

/-! ## Sequences of calls -/

theorem run_calls (hL : 256 ≤ L) (z : Sx127x.St) (ts : List DTurn) : ∀ (s : Sx127x.St) (h : Hal) (log0 l : List DItem) (g : Objs), (∀ h', s.hal = some h' → h' = h) →
    Calls Sx127x.step z log0 s → (∀ t ∈ ts, t.op.Valid) → runDriver L (k + 6) ts (statics s) h = .ok (l, g) → ∃ s', Calls Sx127x.step z (log0 ++ l) s' ∧ g = statics s' := by
  induction ts with
  | nil =>
    intro s h log0 l g _ hc _ hr
    cases hr
    exact ⟨s, by rwa [List.append_nil], rfl⟩
  | cons t ts ih =>
    intro s h log0 l g hs hc hv hr
    have ha := agree_all (ans := t.ans) (k := k) hL s h hs t.op (hv t (by simp))
    unfold runDriver at hr
    unfold Agree at ha
    cases hf : follow t.ans (Sx127x.step s t.op) ⟨[], false⟩ with
    | error u =>
      rw [hf] at ha
      simp only at ha
      rw [ha.2] at hr
      cases hr
    | ok x =>
      obtain ⟨⟨r, s'⟩, w'⟩ := x
      rw [hf] at ha
      obtain ⟨v, m, h1, h2, h3, h4, h5, h6, h7⟩ := ha
      rw [h1] at hr
      simp only [h2] at hr
      cases hr' : runDriver L (k + 6) ts (statics s') (halNow h t.op) with
      | error e => rw [hr'] at hr; cases hr
      | ok y =>
        obtain ⟨l', g'⟩ := y
        rw [hr'] at hr
        cases hr
        obtain ⟨_, tr, htr, hx⟩ := follow_exec _ _ hf
        obtain ⟨s2, c2, e2⟩ := ih s' (halNow h t.op) (log0 ++ [⟨t.op, m.io.tr, dret t.op v m⟩]) l' g h7
          (.snoc hc (hv t (by simp)) (by rw [h4, h3, htr]; exact hx)) (fun t ht => hv t (by simp [ht])) hr'
        exact ⟨s2, by rwa [List.append_assoc] at c2, e2⟩

theorem started_cons (up : Bool) (op : DOp) (ops : List DOp) : Started up (op :: ops) = (okNow up op && Started (upNext up op) ops) := by
  cases op with
  | init h o => cases h <;> simp [Started, okNow, upNext]
  | _ => simp [Started, okNow, upNext]

theorem run_started (hL : 256 ≤ L) (ts : List DTurn) : ∀ (s : Sx127x.St) (h : Hal), (∀ h', s.hal = some h' → h' = h) → (∀ t ∈ ts, t.op.Valid) →
    if Started s.hal.isSome (ts.map (·.op)) then ∃ l g, runDriver L (k + 6) ts (statics s) h = .ok (l, g) ∧ l.map (·.op) = ts.map (·.op)
    else runDriver L (k + 6) ts (statics s) h = .error .null := by
  induction ts with
  | nil =>
    intro s h _ _
    rw [if_pos (by simp [Started])]
    exact ⟨[], statics s, rfl, rfl⟩
  | cons t ts ih =>
    intro s h hs hv
    have ha := agree_all (ans := t.ans) (k := k) hL s h hs t.op (hv t (by simp))
    unfold Agree at ha
    rw [List.map_cons, started_cons]
    cases hf : follow t.ans (Sx127x.step s t.op) ⟨[], false⟩ with
    | error u =>
      rw [hf] at ha
      simp only at ha
      rw [ha.1, Bool.false_and, if_neg (by decide)]
      unfold runDriver
      rw [ha.2]
    | ok x =>
      obtain ⟨⟨r, s'⟩, w'⟩ := x
      rw [hf] at ha
      obtain ⟨v, m, h1, h2, h3, h4, h5, h6, h7⟩ := ha
      rw [h5, Bool.true_and, ← h6]
      have hi := ih s' (halNow h t.op) h7 (fun t ht => hv t (by simp [ht]))
      unfold runDriver
      rw [h1]
      simp only [h2]
      split
      · rename_i hst
        rw [if_pos hst] at hi
        obtain ⟨l, g, e1, e2⟩ := hi
        rw [e1]
        exact ⟨_, g, rfl, by simp [e2]⟩
      · rename_i hst
        rw [if_neg hst] at hi
        rw [hi]
end Uwan.C.Drv
