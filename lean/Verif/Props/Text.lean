import Verif.Lemmas.CodeHist
import Verif.Spec.Text
import Verif.Props.Safety
import Verif.Props.Uplink
import Verif.Props.Exchange
import Verif.Props.Downlink
import Verif.Props.Restart
import Verif.Tests.StackTests

/-!
# The program text (C142 - C146)

The other properties are proved of the model. Here the functions of `src/*.c` and `src/region/*.c`, printed from the sources, are run by the semantics of C in `Verif/Code`, call after call.
-/

namespace Uwan.C
open Spec

variable {E : Env}

/-! ### What is seen and the history of the model behind it -/

theorem Shows.split {l1 l2 : List Seen} {log : List Item} (h : Shows (l1 ++ l2) log) : ∃ log1 log2, log = log1 ++ log2 ∧ Shows l1 log1 ∧ Shows l2 log2 := by
  induction l1 generalizing log with
  | nil => exact ⟨[], log, rfl, .nil, h⟩
  | cons a l1 ih =>
    cases h with
    | cons ha hs =>
      obtain ⟨g1, g2, rfl, h1, h2⟩ := ih hs
      exact ⟨_ :: g1, g2, rfl, .cons ha h1, h2⟩

theorem Shows.one {a : Seen} {log : List Item} (h : Shows [a] log) : ∃ i, log = [i] ∧ a.Of i := by
  cases h with
  | cons ha hs => cases hs; exact ⟨_, rfl, ha⟩

theorem Shows.ev {l : List Seen} {log : List Item} (h : Shows l log) : seenEv l = trace log := by
  induction h with
  | nil => rfl
  | cons ha _ ih => unfold seenEv trace at *; rw [List.flatMap_cons, List.flatMap_cons, ih, ha.ev]

theorem Seen.Of.opens {a : Seen} {i : Item} (h : a.Of i) : newSession i = a.opens := by
  obtain ⟨⟨bat, ho⟩, -, he⟩ := h
  unfold newSession Seen.opens
  rw [ho, he]
  cases a.turn.op <;> rfl

theorem ret_no (r : Ret) : (Ret.val r == Val.int .u32 0) = (r == .err .no) := by
  rcases r with _ | e | b | n
  · rfl
  · cases e <;> rfl
  · cases b <;> rfl
  · rfl

theorem Seen.Of.sent {a : Seen} {i : Item} (h : a.Of i) : (match i.op with | .send .. => i.ret == .err .no | _ => false) = a.sent := by
  obtain ⟨⟨bat, ho⟩, hv, -⟩ := h
  unfold Seen.sent
  rw [ho, hv, ← ret_no]
  cases a.turn.op <;> rfl

theorem Shows.count {l : List Seen} {log : List Item} (h : Shows l log) : sentCount log = l.countP Seen.sent := by
  induction h with
  | nil => rfl
  | @cons a i as l' ha _ ih =>
    unfold sentCount at *
    have := ha.sent
    rw [List.countP_cons, List.countP_cons, ih]
    exact congrArg (fun b : Bool => as.countP Seen.sent + if b = true then 1 else 0) this

theorem Shows.fresh {l : List Seen} {log : List Item} (h : Shows l log) (hl : ∀ a ∈ l, a.opens = false) : ∀ i ∈ log, newSession i = false := by
  induction h with
  | nil => simp
  | cons ha _ ih =>
    intro i hi
    rcases List.mem_cons.mp hi with rfl | hi
    · rw [ha.opens]; exact hl _ (by simp)
    · exact ih (fun a h => hl a (by simp [h])) i hi

theorem runText_turns {L D : Nat} {m0 : Mem World} {ts : List Turn} {seen : List Seen} {m : Mem World} (h : runText L D m0 ts = .ok (seen, m)) : seen.map (·.turn) = ts := by
  induction ts generalizing m0 seen with
  | nil => cases h; rfl
  | cons t ts ih =>
    unfold runText at h
    split at h
    · cases h
    · split at h
      · cases h
      · rename_i hr
        cases h
        rw [List.map_cons, ih hr]

/-! ### A concrete day -/

/-- A call in the environment of the test suite; a packet received is `rx`. -/
def turnOf (op : Op) (rx : Bytes) : Turn := ⟨op, ⟨Tests.xorEnv, rx, BitVec.ofInt 16 (-120), BitVec.ofInt 8 (-5), 0, 0⟩, [7, 9], List.replicate 16 0x64⟩

/-- What is seen of concrete calls. -/
def seenBy (ts : List Turn) : List Seen :=
  match runText 256 9 (start (Vector.replicate 16 0, [])) ts with
  | .ok (l, _) => l
  | .error _ => []

/-- The calls before the last one succeed. -/
theorem ran_by {ts : List Turn} {n : Nat} (hv : ∀ t ∈ ts, t.Valid Tests.xorEnv) (hn : (seenBy ts).length = n + 1) : ∃ m, Ran Tests.xorEnv (seenBy ts) m ∧ (seenBy ts).map (·.turn) = ts := by
  unfold seenBy at *
  cases h : runText 256 9 (start (Vector.replicate 16 0, [])) ts with
  | error f => rw [h] at hn; cases hn
  | ok x =>
    have ht := runText_turns h
    refine ⟨x.2, ⟨256, 9, (Vector.replicate 16 0, []), Nat.le_refl _, Nat.le_refl _, ?_, ?_⟩, ht⟩
    · intro a ha
      exact hv _ (by rw [← ht]; exact List.mem_map_of_mem ha)
    · show runText 256 9 _ (x.1.map (·.turn)) = _
      rw [ht]
      exact h

theorem cut_at {α : Type} (l : List α) (i j : Nat) (hij : i < j) (hj : j + 1 = l.length) :
    l = l.take i ++ [l[i]'(by omega)] ++ (l.take j).drop (i + 1) ++ [l[j]'(by omega)] := by
  have e1 : l.take i ++ [l[i]'(by omega)] = l.take (i + 1) := by rw [List.take_add_one]; simp [show i < l.length by omega]
  have e2 : l.take (i + 1) ++ (l.take j).drop (i + 1) = l.take j := by
    have : l.take (i + 1) = (l.take j).take (i + 1) := by rw [List.take_take, Nat.min_eq_left (by omega)]
    rw [this, List.take_append_drop]
  have e3 : l.take j ++ [l[j]'(by omega)] = l.take (j + 1) := by rw [List.take_add_one]; simp [show j < l.length by omega]
  rw [e1, e2, e3, hj, List.take_length]

/-- A device with a session sends an uplink and receives a downlink, then sends another uplink. -/
def dayTurns : List Turn :=
  [turnOf (.init .eu868) [], turnOf (.setSession 0x01020304 65535 0 Tests.appKey Tests.appKey) [], turnOf (.macSetHandlers (some ⟨true, true, true, true⟩)) [],
    turnOf .deviceTimeReq [], turnOf (.send 2 [1] false 0) [], turnOf (.event 4 (Tests.rxOf [])) [], turnOf (.timer .rx1) [],
    turnOf (.event 2 (Tests.rxOf [])) (dlFrame helloDown 9), turnOf (.send 2 [1, 2, 3] true 0) []]

theorem day_valid : ∀ t ∈ dayTurns, t.Valid Tests.xorEnv := by
  intro t ht
  simp only [dayTurns, List.mem_cons, List.not_mem_nil, or_false] at ht
  rcases ht with rfl | rfl | rfl | rfl | rfl | rfl | rfl | rfl | rfl <;>
    exact ⟨by decide, rfl, by decide, by decide, by decide⟩

theorem day_facts : (seenBy dayTurns).length = 9 ∧ (txs (seenEv (seenBy dayTurns))).length = 2 ∧ (results (seenEv (seenBy dayTurns))).length = 1 ∧
    ((seenEv (seenBy dayTurns)).filter fun | .setFrequency _ => true | _ => false).length = 2 ∧
    (∀ b ∈ ((seenBy dayTurns).take 8).drop 2, b.opens = false) ∧ (((seenBy dayTurns).take 8).drop 2).countP Seen.sent = 1 ∧ ((seenBy dayTurns).drop 8).all Seen.sent = true := by
  decide +kernel

theorem day_length : (seenBy dayTurns).length = 9 := day_facts.1

/-! ### C142 -/

/-- **C142** The program text never stops with a fault: it reads and writes inside its objects, reads no uninitialised variable, divides by nothing but non-zero numbers, overflows no signed number, ends all
loops and calls within the bounds given, and follows no null pointer, with one exception: an interrupt at the end of a transmission while the application has no table of MAC handlers. (Shifts of a byte
above 127 by 24, C61, are recorded in `Ev.ubShift` and do not stop it.) -/
theorem C142_text_safe (L D : Nat) (hL : 256 ≤ L) (hD : 9 ≤ D) (c : Block × Bytes) (ts : List Turn) (hv : ∀ t ∈ ts, t.Valid E) :
    (∃ seen m, runText L D (start c) ts = .ok (seen, m)) ∨
    (runText L D (start c) ts = .error .null ∧ ∃ done t rest seen m, ts = done ++ t :: rest ∧ runText L D (start c) done = .ok (seen, m) ∧
      (∃ b o, t.op = .event b o ∧ b.toNat / 4 % 2 = 1) ∧ stage (seenEv seen) = .tx ∧ m.glob.get "mac_cbs" = some [.null]) := by
  obtain ⟨k, rfl⟩ : ∃ k, D = k + 9 := ⟨D - 9, by omega⟩
  rw [start_enc]
  rcases run_text L k hL E ts hv .boot .boot rest_boot ⟨[], [], c, []⟩ .boot [] .nil with
    ⟨seen, more, s', x', w', -, -, -, hr, -, -⟩ | ⟨done, t, rest, seen, more, s', x', w', op, u, hts, hseg, hsh, hd, ⟨bat, his⟩, hop, hs, hr⟩
  · exact .inl ⟨_, _, hr⟩
  · refine .inr ⟨hr, done, t, rest, _, _, hts, hd, ?_⟩
    rw [List.nil_append] at hseg
    rcases C61_defined_partial hseg hop with ⟨_, _, _, h1, -⟩ | ⟨-, hst, ⟨b, o, ho, hb⟩, -, hc⟩
    · rw [hs] at h1; cases h1
    · refine ⟨⟨b, ?_⟩, by rw [hsh.ev]; exact hst, ?_⟩
      · rw [ho] at his
        generalize t.op = top at *
        cases top <;> simp only [Op.answered, reduceCtorEq, Op.event.injEq] at his
        obtain ⟨rfl, -⟩ := his
        exact ⟨_, rfl, hb⟩
      · show (enc s' x').get "mac_cbs" = _
        rw [get_mac_cbs]
        have : s'.mac.cbs = none := by rw [← config_hist hseg] at hc; exact hc
        rw [this]
        rfl

/-- **C142** An application that has given a table of MAC handlers never sees a fault. -/
theorem C142_handlers (L D : Nat) (hL : 256 ≤ L) (hD : 9 ≤ D) (c : Block × Bytes) (ts : List Turn) (hv : ∀ t ∈ ts, t.Valid E)
    (hc : ∀ done t rest seen m, ts = done ++ t :: rest → (∃ b o, t.op = .event b o) → runText L D (start c) done = .ok (seen, m) → m.glob.get "mac_cbs" ≠ some [.null]) :
    ∃ seen m, runText L D (start c) ts = .ok (seen, m) := by
  rcases C142_text_safe L D hL hD c ts hv with h | ⟨-, done, t, rest, seen, m, hts, hd, ⟨b, o, ho, -⟩, -, hm⟩
  · exact h
  · exact absurd hm (hc done t rest seen m hts ⟨b, o, ho⟩ hd)

/-- A day with all handlers. -/
example : ∃ seen m, runText 256 9 (start (Vector.replicate 16 0, [])) dayTurns = .ok (seen, m) ∧ seen.length = 9 := by
  rcases C142_text_safe 256 9 (by decide) (by decide) (Vector.replicate 16 0, []) dayTurns day_valid with ⟨seen, m, h⟩ | ⟨h, -⟩
  · have := day_length
    unfold seenBy at this
    rw [h] at this
    exact ⟨seen, m, h, this⟩
  · have := day_length
    unfold seenBy at this
    rw [h] at this
    cases this

/-- The exception of C142: a device time request without handlers. -/
theorem C142_null : (match runText 256 9 (start (Vector.replicate 16 0, [])) ([.init .eu868, .setSession 0x01020304 0 0 Tests.appKey Tests.appKey, .deviceTimeReq, .send 2 [1] false 0,
    .event 4 (Tests.rxOf [])].map (turnOf · [])) with | .error .null => true | _ => false) = true := by decide +kernel

/-! ### C143 -/

/-- **C143** Whatever is seen of the program text from power-on is a history of the model: same calls, same values returned, same calls to the radio, the timers, the cipher and the application with the same
arguments in the same order; and the variables have the values the model says. So every property proved of all histories holds of the program text. -/
theorem C143_text_history {seen : List Seen} {m : Mem World} (h : Ran E seen m) :
    ∃ log s x, Hist E log s ∧ Shows seen log ∧ m.glob = enc s x ∧ m.frames = [] ∧ m.io.ev = trace log := by
  obtain ⟨L, D, c, hL, hD, hv, h⟩ := h
  obtain ⟨k, rfl⟩ : ∃ k, D = k + 9 := ⟨D - 9, by omega⟩
  rw [start_enc] at h
  rcases run_text L k hL E (seen.map (·.turn)) (by simpa using hv) .boot .boot rest_boot ⟨[], [], c, []⟩ .boot [] .nil with
    ⟨seen', more, s', x', w', hseg, hsh, -, hr, -, hev⟩ | ⟨_, _, _, _, _, _, _, _, _, _, -, -, -, -, -, -, -, hr⟩
  · rw [h] at hr
    cases hr
    exact ⟨more, s', x', hseg, hsh, rfl, rfl, by rw [hev]; rfl⟩
  · rw [h] at hr
    cases hr

/-- What is seen of the first calls is the first part of what is seen. -/
theorem runText_append {L D : Nat} {m0 : Mem World} {ts1 ts2 : List Turn} {seen : List Seen} {m : Mem World} (h : runText L D m0 (ts1 ++ ts2) = .ok (seen, m)) :
    ∃ seen1 m1 seen2, runText L D m0 ts1 = .ok (seen1, m1) ∧ runText L D m1 ts2 = .ok (seen2, m) ∧ seen = seen1 ++ seen2 := by
  induction ts1 generalizing m0 seen with
  | nil => exact ⟨[], m0, seen, rfl, h, rfl⟩
  | cons t ts1 ih =>
    simp only [List.cons_append, runText] at h ⊢
    split at h
    · cases h
    · rename_i v m' hr
      split at h
      · cases h
      · rename_i l m'' hr'
        cases h
        obtain ⟨s1, m1, s2, h1, h2, rfl⟩ := ih hr'
        exact ⟨_, m1, s2, by rw [h1], h2, rfl⟩

example : ∃ m, Ran Tests.xorEnv (seenBy dayTurns) m ∧ (txs (seenEv (seenBy dayTurns))).length = 2 ∧ (results (seenEv (seenBy dayTurns))).length = 1 := by
  obtain ⟨m, h, -⟩ := ran_by day_valid day_length
  exact ⟨m, h, day_facts.2.1, day_facts.2.2.1⟩

/-! ### C144 -/

/-- **C144** An uplink the program text accepts after `uwan_set_session`, whatever calls and interrupts came in between short of a new session: exactly one frame is handed to the radio; it is a LoRaWAN
data frame of the session's address, with the counter `up + k` if `k` uplinks were accepted before (16 bits on air, 32 bits in MIC and encryption), the right MIC, and a payload the network decrypts to the bytes the
application passed. -/
theorem C144_text_uplink {l seg : List Seen} {a0 a : Seen} {m : Mem World} (h : Ran E (l ++ [a0] ++ seg ++ [a]) m)
    {addr up down : U32} {nwk app : Block} (h0 : a0.turn.op = .setSession addr up down nwk app) (hseg : ∀ b ∈ seg, b.opens = false)
    {port : Byte} {pld : Bytes} {conf : Bool} {r : Nat} (hop : a.turn.op = .send port pld conf r) (hr : a.sent = true) :
    let n := (up.toNat + seg.countP Seen.sent) % 2 ^ 32
    ∃ frame f, txs a.ev = [frame] ∧ parse frame = some f ∧ f.mtype = (if conf then 4 else 2) ∧ f.devAddr = addr.toNat ∧ f.fCnt = n % 65536 ∧
      f.port = (if pld = [] then none else some port.toNat) ∧
      f.mic = dataMic E nwk 0 addr.toNat n (signed frame) ∧ crypt E app 0 addr.toNat n f.payload = pld := by
  intro n
  obtain ⟨log, s, x, hh, hs, -, -, -⟩ := C143_text_history h
  obtain ⟨g1, g2, rfl, h1, h2⟩ := hs.split
  obtain ⟨g3, g4, rfl, h3, h4⟩ := h1.split
  obtain ⟨g5, g6, rfl, h5, h6⟩ := h3.split
  obtain ⟨i, rfl, hi⟩ := h2.one
  obtain ⟨i0, rfl, hi0⟩ := h6.one
  obtain ⟨⟨bat0, ho0⟩, -, -⟩ := id hi0
  rw [h0] at ho0
  obtain ⟨⟨bat, ho⟩, hv, he⟩ := id hi
  rw [hop] at ho
  have hret : i.ret = .err .no := by
    unfold Seen.sent at hr
    rw [hop, hv] at hr
    simp only [ret_no] at hr
    simpa using hr
  have hv0 : (view E (g5 ++ [i0])).addr = addr.toNat ∧ (view E (g5 ++ [i0])).nwk = nwk ∧ (view E (g5 ++ [i0])).app = app := by
    rw [view_snoc]
    unfold View.next
    rw [ho0]
    exact ⟨rfl, rfl, rfl⟩
  have hfc : firstCount i0 = up.toNat := by unfold firstCount; rw [ho0]; rfl
  obtain ⟨fr, f, q1, q2, q3, q4, q5, q6⟩ := C06_uplink_counter hh (by unfold newSession; rw [ho0]; rfl) (h4.fresh hseg) ho hret
  obtain ⟨fr', f', p1, p2, p3, -, -, -, -, -, -, p4, -⟩ := C01_uplink_frame hh ho hret
  rw [q1] at p1
  cases p1
  rw [q2] at p2
  cases p2
  rw [hv0.1, hfc, h4.count] at *
  rw [hv0.2.1] at q5
  rw [hv0.2.2] at q6
  exact ⟨fr, f, by rw [he]; exact q1, q2, p3, q4, q3, p4, q5, q6⟩

/-- The second uplink of the day: its counter has rolled over 16 bits. -/
example : ∃ l a0 seg a m, Ran Tests.xorEnv (l ++ [a0] ++ seg ++ [a]) m ∧ a0.turn.op = .setSession 0x01020304 65535 0 Tests.appKey Tests.appKey ∧
    (∀ b ∈ seg, b.opens = false) ∧ a.turn.op = .send 2 [1, 2, 3] true 0 ∧ a.sent = true ∧ seg.countP Seen.sent = 1 := by
  obtain ⟨m, h, ht⟩ := ran_by day_valid day_length
  have hop : ∀ (i : Nat) (hi : i < (seenBy dayTurns).length), (seenBy dayTurns)[i].turn = dayTurns[i]'(by rw [day_length] at hi; exact hi) := by
    intro i hi
    rw [← List.getElem_map (Seen.turn) (h := by simpa using hi)]
    exact List.getElem_of_eq ht _
  rw [cut_at (seenBy dayTurns) 1 8 (by decide) (by rw [day_length])] at h
  refine ⟨_, _, _, _, m, h, by rw [hop]; rfl, day_facts.2.2.2.2.1, by rw [hop]; rfl, ?_, day_facts.2.2.2.2.2.1⟩
  have hall := day_facts.2.2.2.2.2.2
  rw [List.all_eq_true] at hall
  exact hall _ (List.mem_drop_iff_getElem.mpr ⟨0, by rw [day_length]; decide, rfl⟩)

/-! ### C145 -/

/-- **C145** Everything the program text asks of the radio, the timers and the cipher, in any history: frequencies are inside 860-870 MHz; transmissions and results alternate; transmissions have normal IQ, receptions inverted IQ, both
the common modem settings; each cipher context is deleted before the next one is created. -/
theorem C145_text_calls {seen : List Seen} {m : Mem World} (h : Ran E seen m) :
    (∀ f, Ev.setFrequency f ∈ seenEv seen → 860000000 ≤ f.toNat ∧ f.toNat ≤ 870000000) ∧ alternates .off (seenEv seen) = true ∧
    directed (radio []) (seenEv seen) = true ∧ crypto (seenEv seen) = .none := by
  obtain ⟨log, s, x, hh, hs, -, -, -⟩ := C143_text_history h
  rw [hs.ev]
  exact ⟨fun f hf => C15_band hh f hf, C09_alternate hh, (C60_rates_partial hh).2.2.2.2.1, (C62_contexts hh).1⟩

example : ∃ m, Ran Tests.xorEnv (seenBy dayTurns) m ∧ ((seenEv (seenBy dayTurns)).filter fun | .setFrequency _ => true | _ => false).length = 2 := by
  obtain ⟨m, h, -⟩ := ran_by day_valid day_length
  exact ⟨m, h, day_facts.2.2.2.1⟩

/-! ### C146 -/

/-- **C146** When the program text hands the application a data message (any message type but join-accept) as received without error after `uwan_set_session`, whatever calls and interrupts came in between short of a new session, the bytes read from the
radio are a LoRaWAN data downlink for the session's address whose MIC is that of the session's network key for a 32-bit counter with the 16 bits on air, and the data are the decryption under the session's key. -/
theorem C146_text_downlink {l seg : List Seen} {a0 a : Seen} {m : Mem World} (h : Ran E (l ++ [a0] ++ seg ++ [a]) m)
    {addr up down : U32} {nwk app : Block} (h0 : a0.turn.op = .setSession addr up down nwk app) (hseg : ∀ b ∈ seg, b.opens = false)
    {mt : Byte} {p : DlPkt} (he : Ev.downlink .no mt p ∈ a.ev) (hmt : mt ≠ 1) :
    ∃ f n, parse (a.turn.input.rx.take 255) = some f ∧ (f.mtype = 3 ∨ f.mtype = 5) ∧ f.devAddr = addr.toNat ∧ n < 2 ^ 32 ∧ f.fCnt = n % 65536 ∧
      f.mic = dataMic E nwk 1 addr.toNat n (signed (a.turn.input.rx.take 255)) ∧
      (∀ q, f.port = some q → p.fPort.toNat = q ∧ p.data = some (crypt E (if q = 0 then nwk else app) 1 addr.toNat n f.payload)) ∧
      (f.port = none → p.data = none) := by
  obtain ⟨log, s, x, hh, hs, -, -, -⟩ := C143_text_history h
  obtain ⟨g1, g2, rfl, h1, h2⟩ := hs.split
  obtain ⟨g3, g4, rfl, h3, h4⟩ := h1.split
  obtain ⟨g5, g6, rfl, h5, h6⟩ := h3.split
  obtain ⟨i, rfl, hi⟩ := h2.one
  obtain ⟨i0, rfl, hi0⟩ := h6.one
  obtain ⟨⟨bat0, ho0⟩, -, -⟩ := id hi0
  rw [h0] at ho0
  obtain ⟨⟨bat, ho⟩, -, hev⟩ := id hi
  have hv0 : (view E (g5 ++ [i0])).addr = addr.toNat ∧ (view E (g5 ++ [i0])).nwk = nwk ∧ (view E (g5 ++ [i0])).app = app := by
    rw [view_snoc]
    unfold View.next
    rw [ho0]
    exact ⟨rfl, rfl, rfl⟩
  obtain ⟨k1, k2, k3⟩ := view_keep (E := E) (g5 ++ [i0]) g4 (h4.fresh hseg)
  rw [hv0.1] at k3
  rw [hv0.2.1] at k1
  rw [hv0.2.2] at k2
  generalize g5 ++ [i0] ++ g4 = log at *
  rw [hev] at he
  have hres : (Err.no, mt, p) ∈ results i.ev := List.mem_filterMap.mpr ⟨_, he, rfl⟩
  have hout := hh.end_of
  cases hoc : outcome log i with
  | none => rw [hoc] at hout; rw [show results i.ev = [] from hout] at hres; cases hres
  | timeout => rw [hoc] at hout; rw [hout.1] at hres; simp at hres
  | crc => rw [hoc] at hout; rw [hout.1] at hres; simp at hres
  | packet b =>
    cases hj : (config E log).joining with
    | true =>
      obtain ⟨_, mask, o, mt', p', G, -⟩ := hh.gotJoin hoc hj
      rw [G.results] at hres
      simp only [List.mem_singleton, Prod.mk.injEq] at hres
      obtain ⟨hver, rfl, rfl⟩ := hres
      exfalso
      cases b with
      | nil => simp [joinVerdict] at hver
      | cons b0 r =>
        have hm := G.mtype b0 r rfl
        apply hmt
        unfold joinVerdict at hver
        split at hver
        · cases hver
        · split at hver
          · cases hver
          · rename_i hb0
            simp only [List.head?_cons, ne_eq, Option.some.injEq, Decidable.not_not] at hb0
            subst hb0
            exact BitVec.eq_of_toNat_eq hm
    | false =>
      obtain ⟨_, mask, o, mt', G, -⟩ := hh.gotData hoc hj
      have hbytes : b = a.turn.input.rx.take 255 := by
        rw [G.bytes]
        have := G.op
        rw [ho] at this
        generalize a.turn.op = top at *
        cases top <;> simp only [Op.answered, reduceCtorEq, Op.event.injEq] at this
        rw [← this.2]
      rw [G.results] at hres
      simp only [List.mem_singleton, Prod.mk.injEq] at hres
      obtain ⟨hver, -, hp⟩ := hres
      obtain ⟨hlen, -, hty, hadr, f, d, hf, hd, hmic⟩ := (C27_accepted _ _ _).mp hver.symm
      unfold handed at hp
      rw [← hver, hf] at hp
      simp only [hd, Option.getD_some] at hp
      rw [k1, k3] at hmic
      have hfc := parse_fCnt hf
      have hdl : d < 2 ^ 32 := by
        unfold nextDown at hd
        simp only at hd
        split at hd
        · cases hd; omega
        · split at hd
          · cases hd
          · split at hd <;> cases hd <;> exact Nat.mod_lt _ (by decide)
      have hfacts : f.mtype = leNat (b.take 1) / 32 ∧ f.devAddr = leNat ((b.drop 1).take 4) ∧ ∀ q, f.port = some q → q < 256 := by
        unfold parse at hf
        simp only at hf
        split at hf
        · cases hf
        · cases hf
          refine ⟨rfl, rfl, ?_⟩
          intro q hq
          simp only [Option.map_eq_some_iff] at hq
          obtain ⟨y, -, rfl⟩ := hq
          exact y.isLt
      obtain ⟨e1, e2, e3⟩ := hfacts
      rw [← hbytes]
      refine ⟨f, d, hf, by rw [e1]; exact hty, by rw [e2, hadr]; exact k3, hdl, (nextDown_low hd hfc).symm, hmic, ?_, ?_⟩
      · intro q hq
        rw [hq] at hp
        simp only at hp
        rw [hp, k1, k2, k3]
        refine ⟨?_, rfl⟩
        show (BitVec.ofNat 8 q).toNat = q
        rw [BitVec.toNat_ofNat, Nat.mod_eq_of_lt (e3 q hq)]
      · intro hq
        rw [hq] at hp
        rw [hp]

/-- What the application is given on that day. -/
def helloPkt : DlPkt := ⟨some [0x68, 0x69], 7, BitVec.ofInt 16 (-120), BitVec.ofInt 8 (-5)⟩

theorem morning_facts : (seenBy (dayTurns.take 8)).length = 8 ∧ (∀ b ∈ ((seenBy (dayTurns.take 8)).take 7).drop 2, b.opens = false) ∧
    (∀ b ∈ (seenBy (dayTurns.take 8)).drop 7, results b.ev = [(.no, 3, helloPkt)]) := by decide +kernel

/-- The downlink of the day. -/
example : ∃ l a0 seg a m, Ran Tests.xorEnv (l ++ [a0] ++ seg ++ [a]) m ∧ a0.turn.op = .setSession 0x01020304 65535 0 Tests.appKey Tests.appKey ∧
    (∀ b ∈ seg, b.opens = false) ∧ Ev.downlink .no 3 helloPkt ∈ a.ev := by
  have hv : ∀ t ∈ dayTurns.take 8, t.Valid Tests.xorEnv := fun t ht => day_valid t (List.mem_of_mem_take ht)
  obtain ⟨hl, hf, hr⟩ := morning_facts
  obtain ⟨m, h, ht⟩ := ran_by hv hl
  have hop : ∀ (i : Nat) (hi : i < (seenBy (dayTurns.take 8)).length), (seenBy (dayTurns.take 8))[i].turn = (dayTurns.take 8)[i]'(by rw [hl] at hi; exact hi) := by
    intro i hi
    rw [← List.getElem_map (Seen.turn) (h := by simpa using hi)]
    exact List.getElem_of_eq ht _
  rw [cut_at (seenBy (dayTurns.take 8)) 1 7 (by decide) (by rw [hl])] at h
  refine ⟨_, _, _, _, m, h, by rw [hop]; rfl, hf, ?_⟩
  have hmem := List.mem_singleton_self ((.no, 3, helloPkt) : Err × Byte × DlPkt)
  rw [← hr _ (List.mem_drop_iff_getElem.mpr ⟨0, by rw [hl]; decide, rfl⟩)] at hmem
  obtain ⟨e, he, hx⟩ := List.mem_filterMap.mp hmem
  split at hx <;> cases hx
  exact he

end Uwan.C
