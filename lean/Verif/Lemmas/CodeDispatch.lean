import Verif.Code.Run
import Verif.Lemmas.CodeReports
import Verif.Lemmas.Inv

/-! # `mac_handle_commands` -/

namespace Uwan.C

/-- The bytes `l` lie at `p` in the frame buffer. -/
def At (fr : Bytes) (p : Int) (l : Bytes) : Prop := 0 ≤ p ∧ p + l.length ≤ fr.length ∧ ∀ i : Nat, i < l.length → l[i]? = some (byteAt fr (p + i))

theorem At.bytes1 {fr : Bytes} {p : Int} {l : Bytes} (h : At fr p l) (hl : 1 ≤ l.length) : ∃ t, l = byteAt fr p :: t := by
  obtain ⟨_, _, h⟩ := h
  match l, hl with
  | a :: t, _ =>
    have h0 := h 0 (by simp)
    simp at h0
    exact ⟨t, by rw [h0]⟩

theorem At.bytes2 {fr : Bytes} {p : Int} {l : Bytes} (h : At fr p l) (hl : 2 ≤ l.length) : ∃ t, l = byteAt fr p :: byteAt fr (p + 1) :: t := by
  obtain ⟨_, _, h⟩ := h
  match l, hl with
  | a :: b :: t, _ =>
    have h0 := h 0 (by simp)
    have h1 := h 1 (by simp)
    simp at h0 h1
    exact ⟨t, by rw [h0, h1]⟩
  | [_], hl => simp at hl

theorem At.bytes4 {fr : Bytes} {p : Int} {l : Bytes} (h : At fr p l) (hl : 4 ≤ l.length) :
    ∃ t, l = byteAt fr p :: byteAt fr (p + 1) :: byteAt fr (p + 2) :: byteAt fr (p + 3) :: t := by
  obtain ⟨_, _, h⟩ := h
  match l, hl with
  | a :: b :: c :: d :: t, _ =>
    have h0 := h 0 (by simp)
    have h1 := h 1 (by simp)
    have h2 := h 2 (by simp)
    have h3 := h 3 (by simp)
    simp at h0 h1 h2 h3
    exact ⟨t, by rw [h0, h1, h2, h3]⟩
  | [_], hl => simp at hl
  | [_, _], hl => simp at hl
  | [_, _, _], hl => simp at hl

theorem At.bytes5 {fr : Bytes} {p : Int} {l : Bytes} (h : At fr p l) (hl : 5 ≤ l.length) :
    ∃ t, l = byteAt fr p :: byteAt fr (p + 1) :: byteAt fr (p + 2) :: byteAt fr (p + 3) :: byteAt fr (p + 4) :: t := by
  obtain ⟨_, _, h⟩ := h
  match l, hl with
  | a :: b :: c :: d :: e :: t, _ =>
    have h0 := h 0 (by simp)
    have h1 := h 1 (by simp)
    have h2 := h 2 (by simp)
    have h3 := h 3 (by simp)
    have h4 := h 4 (by simp)
    simp at h0 h1 h2 h3 h4
    exact ⟨t, by rw [h0, h1, h2, h3, h4]⟩
  | [_], hl => simp at hl
  | [_, _], hl => simp at hl
  | [_, _, _], hl => simp at hl
  | [_, _, _, _], hl => simp at hl

theorem At.drop {fr : Bytes} {p : Int} {l : Bytes} (h : At fr p l) (n : Nat) (hn : n ≤ l.length) : At fr (p + n) (l.drop n) := by
  obtain ⟨h0, h1, h⟩ := h
  have hd : (l.drop n).length = l.length - n := List.length_drop
  refine ⟨by omega, by rw [hd]; omega, ?_⟩
  intro i hi
  rw [hd] at hi
  rw [List.getElem?_drop, h (n + i) (by omega)]
  congr 2
  omega

/-- The name of a handler. -/
def nameOf : MacHandler → String
  | .linkCheck => "link_check" | .linkAdr => "link_adr" | .dutyCycle => "duty_cycle" | .rxParamSetup => "rx_param_setup" | .devStatus => "dev_status"
  | .newChannel => "new_channel" | .rxTimingSetup => "rx_timing_setup" | .txParamSetup => "tx_param_setup" | .diChannel => "di_channel" | .deviceTime => "device_time"

/-- What no handler changes in the memory the model does not have. -/
def Kept (x x' : Extra) : Prop := x'.cbs = x.cbs ∧ x'.clock = x.clock ∧ x'.args = x.args

theorem Kept.refl (x : Extra) : Kept x x := ⟨rfl, rfl, rfl⟩
theorem Kept.trans {x y z : Extra} (h : Kept x y) (h' : Kept y z) : Kept x z := ⟨h'.1.trans h.1, h'.2.1.trans h.2.1, h'.2.2.trans h.2.2⟩

theorem kept_eat (x : Extra) (n : Nat) : Kept x (x.eat n) := by
  unfold Extra.eat
  split <;> exact ⟨rfl, rfl, rfl⟩

/-- The world after some calls outside. -/
def World.after (w : World) (bs : List Byte) (ev : List Ev) : World := { w with bats := bs, ev := w.ev ++ ev }

theorem World.after_nil (w : World) : w.after w.bats [] = w := by
  unfold World.after
  rw [List.append_nil]

section
variable (I : Input) (L k : Nat) (s : St) (x : Extra) (fs : List Objs) (w : World)

theorem rxParam_queue (st : Byte) (off rx2dr : Byte) (f : U32) : (if st = 7 then rxParamApply s off rx2dr f else s).mac.queue = s.mac.queue := by
  split
  · unfold rxParamApply setRx2 setRx1DrOffset
    split <;> split <;> (try split) <;> rfl
  · rfl

theorem delay_queue (d : Byte) : (setRx1Delay s d).2.mac = s.mac := by
  unfold setRx1Delay
  split <;> rfl

theorem linkReq_fits (a : Byte) (m : U16) (d : Byte) (hq : s.mac.queue.length + x.macTail.length = 15) :
    (adrHandleLinkReq s a m d).2.mac.queue.length + (x.eat 2).macTail.length = 15 := by
  by_cases h : linkAdrStatus s a m d = 7
  · rw [linkReq_yes s a m d h]
    refine enqueue_fits (linkAdrApply s a m d) x 3 [7] ?_
    have : (linkAdrApply s a m d).mac = s.mac := by
      unfold linkAdrApply
      exact (txPower_keeps _ _).2.2.trans (nbTrans_keeps _ _).2.2
    rw [this]
    exact hq
  · rw [linkReq_no s a m d _ rfl h]
    exact enqueue_fits s x 3 _ hq

theorem run_handler (hL : 16 < L) (r : Region) (hr : s.region = some r) (hm : s.chan.maxCount < 256) (hq : s.mac.queue.length + x.macTail.length = 15)
    (c : MacCommand) (hc : c ∈ macCommands) (p : Int) (l : Bytes) (ha : At s.frame p l) (hl : c.pldSize ≤ l.length) (b : Byte) (bs : List Byte) (hw : w.bats = b :: bs) :
    ∃ ok s' ev x' bs', runHandler c.handler s l b = .ok (ok, s', ev) ∧
      call (host I) Src.prog L (k + 5) (nameOf c.handler) [.ptr ⟨none, "uw_frame", p⟩] ⟨enc s x, fs, w⟩ = .ok (boolVal ok, ⟨enc s' x', fs, w.after bs' ev⟩) ∧
      (bs' = w.bats ∨ bs' = bs) ∧ Kept x x' ∧ s'.mac.queue.length + x'.macTail.length = 15 := by
  obtain ⟨h0, h1, -⟩ := id ha
  simp only [macCommands, List.mem_cons, List.not_mem_nil, or_false] at hc
  rcases hc with rfl | rfl | rfl | rfl | rfl | rfl | rfl | rfl | rfl | rfl <;> simp only [runHandler, nameOf] at hl ⊢
  · obtain ⟨t, ht⟩ := ha.bytes2 hl
    have hrun := run_link_check I L (k + 3) s x fs w p h0 (by omega)
    rw [hrun, ht]
    unfold hLinkCheck
    cases hcb : s.mac.cbs with
    | none => exact ⟨_, _, _, x, w.bats, rfl, by rw [World.after_nil], .inl rfl, .refl x, hq⟩
    | some c =>
      simp only
      by_cases hv : c.linkCheck = true
      · rw [if_pos hv, if_pos hv]
        exact ⟨_, _, _, x, w.bats, rfl, rfl, .inl rfl, .refl x, hq⟩
      · rw [if_neg hv, if_neg hv]
        exact ⟨_, _, _, x, w.bats, rfl, by rw [World.after_nil], .inl rfl, .refl x, hq⟩
  · obtain ⟨t, ht⟩ := ha.bytes4 hl
    have hrun := run_link_adr (host I) L k s x fs w hL r hr p h0 (by omega) hm hq
    rw [hrun, ht]
    unfold hLinkAdr
    rw [hr]
    exact ⟨_, _, _, x.eat 2, w.bats, rfl, by rw [World.after_nil], .inl rfl, kept_eat x 2, linkReq_fits s x _ _ _ hq⟩
  · have hrun := run_duty_cycle (host I) L (k + 2) s x fs w hq ⟨none, "uw_frame", p⟩
    rw [hrun]
    exact ⟨_, _, _, x.eat 1, w.bats, rfl, by rw [World.after_nil], .inl rfl, kept_eat x 1, enqueue_fits s x 4 [] hq⟩
  · obtain ⟨t, ht⟩ := ha.bytes4 hl
    obtain ⟨_, _, _, _, rfl, rfl, rfl, rfl, hrun⟩ := run_rx_param_setup (host I) L (k + 1) s x fs w p h0 (by omega) hq
    rw [hrun, ht]
    refine ⟨_, _, _, x.eat 2, w.bats, rfl, by rw [World.after_nil], .inl rfl, kept_eat x 2, ?_⟩
    refine enqueue_fits _ x 5 [_] ?_
    rw [rxParam_queue]
    exact hq
  · obtain ⟨u, hu, hrun⟩ := run_dev_status I L (k + 2) s x fs w ⟨none, "uw_frame", p⟩ b bs hw hq
    rw [hrun]
    unfold hDevStatus
    cases hcb : s.mac.cbs with
    | none =>
      rw [hcb] at hu
      subst hu
      exact ⟨_, _, _, x.eat 3, w.bats, rfl, by rw [World.after_nil]; rfl, .inl rfl, kept_eat x 3, enqueue_fits s x 6 [_, _] hq⟩
    | some c =>
      rw [hcb] at hu
      simp only at hu ⊢
      by_cases hv : c.battery = true
      · rw [hv] at hu
        subst hu
        rw [if_pos hv]
        exact ⟨_, _, _, x.eat 3, bs, rfl, rfl, .inr rfl, kept_eat x 3, enqueue_fits s x 6 [_, _] hq⟩
      · rw [Bool.not_eq_true] at hv
        rw [hv] at hu
        subst hu
        rw [if_neg (by rw [hv]; decide)]
        exact ⟨_, _, _, x.eat 3, w.bats, rfl, by rw [World.after_nil]; rfl, .inl rfl, kept_eat x 3, enqueue_fits s x 6 [_, _] hq⟩
  · obtain ⟨t, ht⟩ := ha.bytes5 hl
    obtain ⟨_, rfl, hrun⟩ := run_new_channel (host I) L (k + 1) s x fs w hL p h0 (by omega) hm hq
    rw [hrun, ht]
    refine ⟨_, _, _, x.eat 2, w.bats, rfl, by rw [World.after_nil], .inl rfl, kept_eat x 2, ?_⟩
    exact enqueue_fits { s with chan := _ } x 7 [_] hq
  · obtain ⟨t, ht⟩ := ha.bytes1 hl
    obtain ⟨_, rfl, hrun⟩ := run_rx_timing_setup (host I) L (k + 2) s x fs w p h0 (by omega) hq
    rw [hrun, ht]
    refine ⟨_, _, _, x.eat 1, w.bats, rfl, by rw [World.after_nil], .inl rfl, kept_eat x 1, ?_⟩
    refine enqueue_fits _ x 8 [] ?_
    rw [delay_queue]
    exact hq
  · rw [run_tx_param_setup]
    exact ⟨_, _, _, x, w.bats, rfl, by rw [World.after_nil], .inl rfl, .refl x, hq⟩
  · rw [run_di_channel]
    exact ⟨_, _, _, x, w.bats, rfl, by rw [World.after_nil], .inl rfl, .refl x, hq⟩
  · obtain ⟨t, ht⟩ := ha.bytes5 hl
    have hrun := run_device_time I L (k + 3) s x fs w p h0 (by omega)
    rw [hrun, ht]
    unfold hDeviceTime
    cases hcb : s.mac.cbs with
    | none => exact ⟨_, _, _, x, w.bats, rfl, by rw [World.after_nil], .inl rfl, .refl x, hq⟩
    | some c =>
      simp only
      by_cases hv : c.timeResult = true
      · rw [if_pos hv, if_pos hv]
        refine ⟨_, _, _, x, w.bats, rfl, ?_, .inl rfl, .refl x, hq⟩
        unfold World.shifted shiftMark World.after World.say
        split
        · simp only [List.append_assoc]
        · rfl
      · rw [if_neg hv, if_neg hv]
        exact ⟨_, _, _, x, w.bats, rfl, by rw [World.after_nil], .inl rfl, .refl x, hq⟩

/-- A loop left by `break` in round `j`. -/
theorem iter_brk {ω : Type} (cond : M ω Bool) (step body : M ω Out) (j : Nat) (J : Nat → Mem ω) (out : Mem ω) (hc : ∀ i ≤ j, cond (J i) = .ok (true, J i))
    (hb : ∀ i < j, body (J i) = .ok (.next, J i)) (hs : ∀ i < j, ∃ o, step (J i) = .ok (o, J (i + 1))) (he : body (J j) = .ok (.brk, out))
    (L : Nat) (hL : j < L) : iter cond step body L (J 0) = .ok (.next, out) := by
  suffices h : ∀ d i, i + d = j → ∀ L, d < L → iter cond step body L (J i) = .ok (.next, out) from h j 0 (by omega) L hL
  intro d
  induction d with
  | zero =>
    intro i hi L hL
    obtain ⟨L, rfl⟩ : ∃ l, L = l + 1 := ⟨L - 1, by omega⟩
    have : i = j := by omega
    subst this
    simp only [iter, M.bind, hc i (by omega), if_true, he, M.pure]
  | succ d ih =>
    intro i hi L hL
    obtain ⟨L, rfl⟩ : ∃ l, L = l + 1 := ⟨L - 1, by omega⟩
    obtain ⟨o, ho⟩ := hs i (by omega)
    simp only [iter, M.bind, hc i (by omega), hb i (by omega), ho, if_true]
    exact ih (i + 1) (by omega) L (by omega)

theorem iter_out {ω : Type} {cond : M ω Bool} {step body : M ω Out} {n : Nat} {m m' : Mem ω} (h : cond m = .ok (false, m')) : iter cond step body (n + 1) m = .ok (.next, m') := by
  simp only [iter, M.bind, h, Bool.false_eq_true, if_false, M.pure]

theorem iter_stop {ω : Type} {cond : M ω Bool} {step body : M ω Out} {n : Nat} {m m' : Mem ω} (h : cond m = .ok (true, m)) (hb : body m = .ok (.brk, m')) :
    iter cond step body (n + 1) m = .ok (.next, m') := by
  simp only [iter, M.bind, h, if_true, hb, M.pure]

theorem iter_next {ω : Type} {cond : M ω Bool} {step body : M ω Out} {n : Nat} {m m' m'' : Mem ω} {o : Out} (h : cond m = .ok (true, m)) (hb : body m = .ok (.next, m'))
    (hs : step m' = .ok (o, m'')) : iter cond step body (n + 1) m = iter cond step body n m'' := by
  simp only [iter, M.bind, h, if_true, hb, hs]

def cmdAt (i : Nat) : MacCommand := macCommands.getD i ⟨.linkCheck, 0x02, 2⟩

theorem cell_cid {ω : Type} (m : Mem ω) (i : Nat) (h : i < 10) :
    cell m (i : Int) (some [.int .u8 2, .int .u8 3, .int .u8 4, .int .u8 5, .int .u8 6, .int .u8 7, .int .u8 8, .int .u8 9, .int .u8 10, .int .u8 13]) =
    .ok (.int .u8 ((cmdAt i).cid.toNat : Int), m) := by
  have : i = 0 ∨ i = 1 ∨ i = 2 ∨ i = 3 ∨ i = 4 ∨ i = 5 ∨ i = 6 ∨ i = 7 ∨ i = 8 ∨ i = 9 := by omega
  rcases this with h | h | h | h | h | h | h | h | h | h <;> subst h <;> rfl

theorem cell_size {ω : Type} (m : Mem ω) (i : Nat) (h : i < 10) :
    cell m (i : Int) (some [.int .u8 2, .int .u8 4, .int .u8 1, .int .u8 4, .int .u8 0, .int .u8 5, .int .u8 1, .int .u8 1, .int .u8 4, .int .u8 5]) =
    .ok (.int .u8 ((cmdAt i).pldSize : Int), m) := by
  have : i = 0 ∨ i = 1 ∨ i = 2 ∨ i = 3 ∨ i = 4 ∨ i = 5 ∨ i = 6 ∨ i = 7 ∨ i = 8 ∨ i = 9 := by omega
  rcases this with h | h | h | h | h | h | h | h | h | h <;> subst h <;> rfl

theorem cell_handler {ω : Type} (m : Mem ω) (i : Nat) (h : i < 10) :
    cell m (i : Int) (some [.fn "link_check", .fn "link_adr", .fn "duty_cycle", .fn "rx_param_setup", .fn "dev_status", .fn "new_channel", .fn "rx_timing_setup",
      .fn "tx_param_setup", .fn "di_channel", .fn "device_time"]) = .ok (.fn (nameOf (cmdAt i).handler), m) := by
  have : i = 0 ∨ i = 1 ∨ i = 2 ∨ i = 3 ∨ i = 4 ∨ i = 5 ∨ i = 6 ∨ i = 7 ∨ i = 8 ∨ i = 9 := by omega
  rcases this with h | h | h | h | h | h | h | h | h | h <;> subst h <;> rfl

theorem cmdAt_mem (i : Nat) (h : i < 10) : cmdAt i ∈ macCommands := by
  unfold cmdAt
  rw [List.getD_eq_getElem?_getD, List.getElem?_eq_getElem (show i < macCommands.length from h)]
  exact List.getElem_mem _

/-- Pointers into the frame. -/
def fptr (p : Int) : Val := .ptr ⟨none, "uw_frame", p⟩

/-- The local variables of `mac_handle_commands` before the loop. -/
def cmdFrame (b : Int) (n : Nat) (e p : Int) : Objs :=
  [("mac_cmds_count", [.int .i32 10]), ("end", [fptr e]), ("start", [fptr p]), ("buf", [fptr b]), ("len", [.int .u8 n])]

/-- After the search for the command. -/
def searchFrame (b : Int) (n : Nat) (e p : Int) (c : Byte) (st : Bool) (i : Nat) : Objs :=
  ("i", [.int .i32 i]) :: ("status", [boolVal st]) :: ("cid", [.int .u8 c.toNat]) :: cmdFrame b n e p

/-- The search. -/
def searchLoop : Stmt := .loop (.bin .lt (.load (.loc "i")) (.load (.loc "mac_cmds_count"))) (.expr (.post .add (.loc "i")))
                                (.ite (.bin .eq (.load (.loc "cid")) (.load (.fld (.elem (.addr (.glob "mac_commands")) (.load (.loc "i"))) ".cid")))
                                  (.seq (.ite (.bin .ge (.bin .sub (.load (.loc "end")) (.load (.loc "start"))) (.load (.fld (.elem (.addr (.glob "mac_commands")) (.load (.loc "i"))) ".pld_size")))
                                      (.seq (.expr (.asg (.loc "status") (.call (.load (.fld (.elem (.addr (.glob "mac_commands")) (.load (.loc "i"))) ".handler")) (.cons (.load (.loc "start")) (.nil)))))
                                        (.expr (.asgOp .add (.loc "start") (.load (.fld (.elem (.addr (.glob "mac_commands")) (.load (.loc "i"))) ".pld_size")))))
                                      (.skip))
                                    (.brk))
                                  (.skip))

/-- The loop over the commands. -/
def cmdBody : Stmt := (.seq (.decl "cid" ([.uninit (some .u8)]))
                  (.seq (.expr (.asg (.loc "cid") (.load (.elem (.post .add (.loc "start")) (.lit .i32 0)))))
                    (.seq (.decl "status" ([.uninit (some .bool)]))
                      (.seq (.expr (.asg (.loc "status") (.lit .i32 0)))
                        (.seq (.decl "i" ([.uninit (some .i32)]))
                          (.seq (.expr (.asg (.loc "i") (.lit .i32 0)))
                            (.seq searchLoop
                              (.ite (.bin .ne (.load (.loc "status")) (.lit .i32 1))
                                (.brk)
                                (.skip)))))))))

theorem byteNe {a b : Byte} (h : a ≠ b) : eqb (a.toNat : Int) (b.toNat : Int) = false := by
  apply eqb_false
  intro he
  exact h (BitVec.eq_of_toNat_eq (by omega))

theorem search_none (hL : 16 < L) (b : Int) (n : Nat) (e p : Int) (c : Byte) (h : ∀ i < 10, (cmdAt i).cid ≠ c) :
    exec ⟨host I, call (host I) Src.prog L k, L⟩ searchLoop ⟨enc s x, searchFrame b n e p c false 0 :: fs, w⟩ =
      .ok (.next, ⟨enc s x, searchFrame b n e p c false 10 :: fs, w⟩) := by
  unfold searchLoop
  rw [exec_loop]
  refine iter_count _ _ _ 10 (fun i => ⟨enc s x, searchFrame b n e p c false i :: fs, w⟩) (fun i => ⟨enc s x, searchFrame b n e p c false i :: fs, w⟩) ?_ ?_ ?_ ?_ L (by omega)
  · intro i hi
    unfold searchFrame cmdFrame
    crun []
  · intro i hi
    have hne := byteNe (h i hi).symm
    unfold searchFrame cmdFrame
    crun [cell_cid, hne]
  · intro i hi
    refine ⟨.next, ?_⟩
    unfold searchFrame cmdFrame
    crun [Int.natCast_add, Int.natCast_one]
  · unfold searchFrame cmdFrame
    crun []

@[csem] theorem bin_ptr_sub {ω : Type} (H : Host ω) (m : Mem ω) (o : String) (a b : Int) :
    binop H .sub (.ptr ⟨none, o, a⟩) (.ptr ⟨none, o, b⟩) m = .ok (.int .i32 (a - b), m) := by
  simp [binop]

@[csem] theorem bin_ptr_lt {ω : Type} (H : Host ω) (m : Mem ω) (o : String) (a b : Int) :
    binop H .lt (.ptr ⟨none, o, a⟩) (.ptr ⟨none, o, b⟩) m = .ok (truth (ltb a b), m) := by
  simp [binop, ltb]

theorem search_short (hL : 16 < L) (b : Int) (n : Nat) (e p : Int) (c : Byte) (j : Nat) (hj : j < 10) (h : ∀ i < j, (cmdAt i).cid ≠ c) (hc : (cmdAt j).cid = c)
    (hs : e - p < (cmdAt j).pldSize) :
    exec ⟨host I, call (host I) Src.prog L k, L⟩ searchLoop ⟨enc s x, searchFrame b n e p c false 0 :: fs, w⟩ =
      .ok (.next, ⟨enc s x, searchFrame b n e p c false j :: fs, w⟩) := by
  unfold searchLoop
  rw [exec_loop]
  refine iter_brk _ _ _ j (fun i => ⟨enc s x, searchFrame b n e p c false i :: fs, w⟩) _ ?_ ?_ ?_ ?_ L (by omega)
  · intro i hi
    unfold searchFrame cmdFrame
    crun []
  · intro i hi
    have hne := byteNe (h i hi).symm
    unfold searchFrame cmdFrame
    crun [cell_cid, hne]
  · intro i hi
    refine ⟨.next, ?_⟩
    unfold searchFrame cmdFrame
    crun [Int.natCast_add, Int.natCast_one]
  · unfold searchFrame cmdFrame fptr
    crun [cell_cid, hc, cell_size]

theorem search_found (hL : 16 < L) (b : Int) (n : Nat) (e p : Int) (c : Byte) (j : Nat) (hj : j < 10) (h : ∀ i < j, (cmdAt i).cid ≠ c) (hc : (cmdAt j).cid = c)
    (hs : (cmdAt j).pldSize ≤ e - p) (ok : Bool) (s' : St) (x' : Extra) (w' : World)
    (hrun : call (host I) Src.prog L k (nameOf (cmdAt j).handler) [fptr p] ⟨enc s x, searchFrame b n e p c false j :: fs, w⟩ =
      .ok (boolVal ok, ⟨enc s' x', searchFrame b n e p c false j :: fs, w'⟩)) :
    exec ⟨host I, call (host I) Src.prog L k, L⟩ searchLoop ⟨enc s x, searchFrame b n e p c false 0 :: fs, w⟩ =
      .ok (.next, ⟨enc s' x', searchFrame b n e (p + (cmdAt j).pldSize) c ok j :: fs, w'⟩) := by
  unfold searchLoop
  rw [exec_loop]
  refine iter_brk _ _ _ j (fun i => ⟨enc s x, searchFrame b n e p c false i :: fs, w⟩) _ ?_ ?_ ?_ ?_ L (by omega)
  · intro i hi
    unfold searchFrame cmdFrame
    crun []
  · intro i hi
    have hne := byteNe (h i hi).symm
    unfold searchFrame cmdFrame
    crun [cell_cid, hne]
  · intro i hi
    refine ⟨.next, ?_⟩
    unfold searchFrame cmdFrame
    crun [Int.natCast_add, Int.natCast_one]
  · unfold searchFrame cmdFrame fptr at hrun
    unfold searchFrame cmdFrame fptr
    crun [cell_cid, hc, cell_size, cell_handler, hrun]

/-- The frames with which a round begins. -/
def RoundStart (b : Int) (n : Nat) (e p : Int) (f : Objs) : Prop := f = cmdFrame b n e p ∨ ∃ c st i, f = searchFrame b n e p c st i

theorem round_to (b : Int) (n : Nat) (e p : Int) (f : Objs) (hf : RoundStart b n e p f) (h0 : 0 ≤ p) (h1 : p < s.frame.length) (st : Bool) (i : Nat) (s' : St) (x' : Extra) (w' : World)
    (q : Int) (hrun : exec ⟨host I, call (host I) Src.prog L k, L⟩ searchLoop ⟨enc s x, searchFrame b n e (p + 1) (byteAt s.frame p) false 0 :: fs, w⟩ =
      .ok (.next, ⟨enc s' x', searchFrame b n e q (byteAt s.frame p) st i :: fs, w'⟩)) :
    exec ⟨host I, call (host I) Src.prog L k, L⟩ cmdBody ⟨enc s x, f :: fs, w⟩ =
      .ok (if st then .next else .brk, ⟨enc s' x', searchFrame b n e q (byteAt s.frame p) st i :: fs, w'⟩) := by
  unfold cmdBody
  generalize searchLoop = W at *
  unfold searchFrame cmdFrame fptr at hrun
  rcases hf with rfl | ⟨c, st', i', rfl⟩ <;> unfold searchFrame cmdFrame fptr <;> cases st <;> crun [Int.natCast_zero] at hrun ⊢ <;> crun [hrun]

/-- The handlers ask for the battery level at most once for every position of the command. -/
theorem macLoop_congr (b b' : Nat → Byte) (n : Nat) : ∀ (s : St) (l : Bytes), (∀ m < l.length, b m = b' m) → macLoop b n s l = macLoop b' n s l := by
  induction n with
  | zero => intro s l _; cases l <;> rfl
  | succ n ih =>
    intro s l h
    cases l with
    | nil => rfl
    | cons cid rest =>
      simp only [macLoop]
      rw [h rest.length (by simp)]
      have hi : ∀ s' (k : Nat), macLoop b n s' (rest.drop k) = macLoop b' n s' (rest.drop k) := by
        intro s' k
        apply ih
        intro m hm
        rw [List.length_drop] at hm
        exact h m (by simp; omega)
      simp only [hi]

theorem found_at {cid : Byte} {c : MacCommand} (h : macCommands.find? (fun c => c.cid == cid) = some c) :
    ∃ j, j < 10 ∧ cmdAt j = c ∧ (cmdAt j).cid = cid ∧ ∀ i < j, (cmdAt i).cid ≠ cid := by
  rw [List.find?_eq_some_iff_getElem] at h
  obtain ⟨hc, j, hj, he, hn⟩ := h
  have hg : ∀ i (hi : i < macCommands.length), cmdAt i = macCommands[i] := by
    intro i hi
    unfold cmdAt
    rw [List.getD_eq_getElem?_getD, List.getElem?_eq_getElem hi]
    rfl
  refine ⟨j, hj, (hg j hj).trans he, ?_, ?_⟩
  · rw [hg j hj, he]
    simpa using hc
  · intro i hi
    have := hn i hi
    rw [hg i (by omega)]
    simpa using this

theorem not_found {cid : Byte} (h : macCommands.find? (fun c => c.cid == cid) = none) : ∀ i < 10, (cmdAt i).cid ≠ cid := by
  intro i hi he
  rw [List.find?_eq_none] at h
  exact h _ (cmdAt_mem i hi) (by simp [he])

theorem cmd_loop (hL : 16 < L) (b : Int) (n : Nat) (e : Int) (r : Region) : ∀ (m : Nat) (l : Bytes), l.length ≤ m → ∀ (s : St) (x : Extra) (w : World) (f : Objs) (p : Int) (R : Nat), l.length < R →
    Inv s → s.region = some r → s.mac.queue.length + x.macTail.length = 15 → At s.frame p l → e = p + l.length → l.length < w.bats.length → RoundStart b n e p f →
    ∃ (bat : Answers w.bats) (s' : St) (x' : Extra) (ev : List Ev) (bs' : List Byte) (f' : Objs), macLoop bat.1 m s l = .ok (s', ev) ∧
      iter (M.bind (eval ⟨host I, call (host I) Src.prog L (k + 5), L⟩ (.bin .lt (.load (.loc "start")) (.load (.loc "end")))) isTrue)
        (exec ⟨host I, call (host I) Src.prog L (k + 5), L⟩ .skip) (exec ⟨host I, call (host I) Src.prog L (k + 5), L⟩ cmdBody) R ⟨enc s x, f :: fs, w⟩ =
      .ok (.next, ⟨enc s' x', f' :: fs, w.after bs' ev⟩) ∧ Kept x x' ∧ s'.mac.queue.length + x'.macTail.length = 15 := by
  intro m
  induction m with
  | zero =>
    intro l hl s x w f p R hR hi hr hq ha he hw hf
    obtain rfl : l = [] := List.eq_nil_of_length_eq_zero (by omega)
    obtain ⟨R, rfl⟩ : ∃ q, R = q + 1 := ⟨R - 1, by simp at hR; omega⟩
    refine ⟨.first hw, s, x, [], w.bats, f, rfl, ?_, .refl x, hq⟩
    simp at he
    subst he
    rw [World.after_nil]
    apply iter_out
    rcases hf with rfl | ⟨c, st', i', rfl⟩ <;> simp only [searchFrame, cmdFrame, fptr] <;> crun []
  | succ m ih =>
    intro l hl s x w f p R hR hi hr hq ha he hw hf
    cases l with
    | nil =>
      obtain ⟨R, rfl⟩ : ∃ q, R = q + 1 := ⟨R - 1, by simp at hR; omega⟩
      refine ⟨.first hw, s, x, [], w.bats, f, rfl, ?_, .refl x, hq⟩
      simp at he
      subst he
      rw [World.after_nil]
      apply iter_out
      rcases hf with rfl | ⟨c, st', i', rfl⟩ <;> simp only [searchFrame, cmdFrame, fptr] <;> crun []
    | cons cid rest =>
      simp only [List.length_cons] at hl hR hw he
      obtain ⟨R, rfl⟩ : ∃ q, R = q + 1 := ⟨R - 1, by omega⟩
      obtain ⟨h0, h1, -⟩ := id ha
      simp only [List.length_cons] at h1
      have hcid : cid = byteAt s.frame p := by
        obtain ⟨t, ht⟩ := ha.bytes1 (by simp)
        exact (List.cons.inj ht).1
      have ha' : At s.frame (p + 1) rest := ha.drop 1 (by simp)
      have hcond : M.bind (eval ⟨host I, call (host I) Src.prog L (k + 5), L⟩ (.bin .lt (.load (.loc "start")) (.load (.loc "end")))) isTrue ⟨enc s x, f :: fs, w⟩ = .ok (true, ⟨enc s x, f :: fs, w⟩) := by
        rcases hf with rfl | ⟨c, st', i', rfl⟩ <;> simp only [searchFrame, cmdFrame, fptr] <;> crun []
      cases hfi : macCommands.find? (fun c => c.cid == cid) with
      | none =>
        refine ⟨.first hw, s, x, [], w.bats, searchFrame b n e (p + 1) cid false 10, ?_, ?_, .refl x, hq⟩
        · simp only [macLoop, hfi]
        · have hs := search_none I L (k + 5) s x fs w hL b n e (p + 1) cid (not_found hfi)
          rw [hcid] at hs
          have hb := round_to I L (k + 5) s x fs w b n e p f hf h0 (by omega) false 10 s x w (p + 1) hs
          rw [World.after_nil, hcid]
          exact iter_stop hcond hb
      | some c =>
        obtain ⟨j, hj, hcj, hjc, hji⟩ := found_at hfi
        by_cases hp : c.pldSize ≤ rest.length
        · obtain ⟨b0, bs0, hbs⟩ : ∃ b0 bs0, w.bats = b0 :: bs0 := by
            cases hb : w.bats with
            | nil => rw [hb] at hw; simp at hw
            | cons b0 bs0 => exact ⟨b0, bs0, rfl⟩
          have hm : s.chan.maxCount < 256 := by have := hi.chan.max_le; omega
          have hmem : c ∈ macCommands := hcj ▸ cmdAt_mem j hj
          obtain ⟨ok, s1, ev1, x1, bs1, hh, hrun, hlen, hk, hq1⟩ :=
            run_handler I L k s x (searchFrame b n e (p + 1) cid false j :: fs) w hL r hr hm hq c hmem (p + 1) rest ha' hp b0 bs0 hbs
          obtain ⟨_, _, _, hh', hi1, hfr⟩ := runHandler_ok hi (by rw [hr]; rfl) c hmem rest hp b0
          rw [hh] at hh'
          cases hh'
          rw [← hcj] at hrun
          have hs := search_found I L (k + 5) s x fs w hL b n e (p + 1) cid j hj hji hjc (by rw [hcj]; omega) ok s1 x1 (w.after bs1 ev1) hrun
          rw [hcid] at hs
          have hb := round_to I L (k + 5) s x fs w b n e p f hf h0 (by omega) ok j s1 x1 (w.after bs1 ev1) _ hs
          cases ok with
          | false =>
            refine ⟨⟨fun _ => b0, fun _ => by rw [hbs]; simp⟩, s1, x1, ev1, bs1, _, ?_, iter_stop hcond hb, hk, hq1⟩
            simp only [macLoop, hfi, if_pos hp, hh]
            rfl
          | true =>
            have hd : (rest.drop c.pldSize).length = rest.length - c.pldSize := List.length_drop
            have hsub : ∀ y ∈ bs1, y ∈ w.bats := by
              rcases hlen with rfl | rfl
              · exact fun y h => h
              · intro y h; rw [hbs]; exact List.mem_cons_of_mem _ h
            have hbl : rest.length < bs1.length := by
              rcases hlen with rfl | rfl
              · omega
              · rw [hbs] at hw; simp at hw; omega
            have had : At s1.frame (p + 1 + c.pldSize) (rest.drop c.pldSize) := by rw [hfr.frame]; exact ha'.drop c.pldSize hp
            rw [hcj] at hb
            obtain ⟨bat, s2, x2, ev2, bs2, f2, hl2, hr2, hk2, hq2⟩ := ih (rest.drop c.pldSize) (by omega) s1 x1 (w.after bs1 ev1) _ (p + 1 + c.pldSize) R (by omega) hi1
              (hfr.region.trans hr) hq1 had (by omega) (by show _ < bs1.length; omega) (.inr ⟨byteAt s.frame p, true, j, rfl⟩)
            refine ⟨⟨fun q => if q = rest.length then b0 else bat.1 q, fun q => by
              show (if q = rest.length then b0 else bat.1 q) ∈ w.bats
              split
              · rw [hbs]; simp
              · exact hsub _ (bat.2 q)⟩, s2, x2, ev1 ++ ev2, bs2, f2, ?_, ?_, hk.trans hk2, hq2⟩
            · have hl3 : macLoop (fun q => if q = rest.length then b0 else bat.1 q) m s1 (rest.drop c.pldSize) = .ok (s2, ev2) := by
                rw [← hl2]
                apply macLoop_congr
                intro q hq
                show (if q = rest.length then b0 else bat.1 q) = bat.1 q
                rw [if_neg (by omega)]
              simp only [macLoop, hfi, if_pos hp, if_true, hh]
              show (Except.bind (macLoop _ m s1 (rest.drop c.pldSize)) _) = _
              rw [hl3]
              rfl
            · rw [iter_next hcond hb (exec_skip _ _), hr2]
              simp only [World.after, List.append_assoc]
        · refine ⟨.first hw, s, x, [], w.bats, searchFrame b n e (p + 1) cid false j, ?_, ?_, .refl x, hq⟩
          · simp only [macLoop, hfi, if_neg hp]
          · have hs := search_short I L (k + 5) s x fs w hL b n e (p + 1) cid j hj hji hjc (by rw [hcj]; omega)
            rw [hcid] at hs
            have hb := round_to I L (k + 5) s x fs w b n e p f hf h0 (by omega) false j s x w (p + 1) hs
            rw [World.after_nil, hcid]
            exact iter_stop hcond hb

/-- For every sequence of answers of the battery callback there is an oracle with which the model does the same. -/
theorem run_mac_handle_commands (t : Ty) (hL : 16 < L) (r : Region) (hi : Inv s) (hr : s.region = some r) (hq : s.mac.queue.length + x.macTail.length = 15) (p : Int) (l : Bytes) (ha : At s.frame p l)
    (hl : l.length < L) (hw : l.length < w.bats.length) :
    ∃ (bat : Answers w.bats) (s' : St) (x' : Extra) (ev : List Ev) (bs' : List Byte), macHandleCommands bat.1 s l = .ok (s', ev) ∧
      call (host I) Src.prog L (k + 6) "mac_handle_commands" [fptr p, .int t l.length] ⟨enc s x, fs, w⟩ = .ok (.null, ⟨enc s' x', fs, w.after bs' ev⟩) ∧
      Kept x x' ∧ s'.mac.queue.length + x'.macTail.length = 15 := by
  have hfl := hi.frame
  obtain ⟨h0, h1, -⟩ := id ha
  obtain ⟨bat, s', x', ev, bs', f', hm, hrun, hk, hq'⟩ := cmd_loop I L k fs hL p l.length (p + l.length) r l.length l (Nat.le_refl _) s x w (cmdFrame p l.length (p + l.length) p) p L hl hi hr hq ha rfl hw (.inl rfl)
  refine ⟨bat, s', x', ev, bs', hm, ?_, hk, hq'⟩
  rw [call_fun (host I) find_mac_handle_commands]
  have hloop := exec_loop ⟨host I, call (host I) Src.prog L (k + 5), L⟩ ⟨enc s x, cmdFrame p l.length (p + l.length) p :: fs, w⟩ (.bin .lt (.load (.loc "start")) (.load (.loc "end"))) .skip cmdBody
  rw [hrun] at hloop
  have hsrc : Src.mac_handle_commands.body = .seq (.decl "start" ([.uninit none]))
    (.seq (.expr (.asg (.loc "start") (.load (.loc "buf"))))
      (.seq (.decl "end" ([.uninit none]))
        (.seq (.expr (.asg (.loc "end") (.bin .add (.load (.loc "start")) (.load (.loc "len")))))
          (.seq (.decl "mac_cmds_count" ([.uninit (some .i32)]))
            (.seq (.expr (.asg (.loc "mac_cmds_count") (.bin .div (.lit .u32 80) (.lit .u32 8))))
              (.loop (.bin .lt (.load (.loc "start")) (.load (.loc "end"))) .skip cmdBody)))))) := rfl
  rw [hsrc]
  have hpar : Src.mac_handle_commands.params = [("buf", none), ("len", some .u8)] := rfl
  have hres : Src.mac_handle_commands.result = none := rfl
  rw [hpar, hres]
  generalize (Stmt.loop (.bin .lt (.load (.loc "start")) (.load (.loc "end"))) .skip cmdBody) = W at *
  unfold cmdFrame fptr at hloop
  unfold fptr
  crun [] at hloop ⊢
  crun [hloop]
end
end Uwan.C
