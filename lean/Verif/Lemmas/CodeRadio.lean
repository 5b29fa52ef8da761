import Verif.Lemmas.CodeApi

/-! # What `uwan_join` and `uwan_send_frame` share: running a function in parts, the packet parameters, writing a frame from the left -/

namespace Uwan.C

/-- The first `n` statements of a sequence. -/
def Stmt.upTo : Nat → Stmt → Stmt
  | n + 1, .seq a b => .seq a (upTo n b)
  | _, _ => .skip

/-- What follows them. -/
def Stmt.after : Nat → Stmt → Stmt
  | n + 1, .seq _ b => after n b
  | _, s => s

section
variable {ω : Type}

theorem exec_split (C : Ctx ω) : ∀ (n : Nat) (b : Stmt) (m m' : Mem ω), exec C (b.upTo n) m = .ok (.next, m') → exec C b m = exec C (b.after n) m'
  | 0, b, m, m', h => by
    have h' : exec C .skip m = .ok (.next, m') := by cases b <;> exact h
    rw [exec_skip] at h'
    injection h' with h'
    injection h' with _ h'
    subst h'
    cases b <;> rfl
  | n + 1, b, m, m', h => by
    cases b
    case seq a b =>
      rw [Stmt.upTo, exec_seq] at h
      rw [Stmt.after, exec_seq]
      cases ha : exec C a m with
      | error e => rw [ha] at h; cases h
      | ok p =>
        obtain ⟨o, m1⟩ := p
        rw [ha] at h
        cases o with
        | next => exact exec_split C n b m1 m' h
        | brk => cases h
        | ret v => cases h
    all_goals
      have h' : exec C .skip m = .ok (.next, m') := h
      rw [exec_skip] at h'
      cases h'
      rfl

theorem exec_split_ret (C : Ctx ω) (v : Option Val) : ∀ (n : Nat) (b : Stmt) (m m' : Mem ω), exec C (b.upTo n) m = .ok (.ret v, m') → exec C b m = .ok (.ret v, m')
  | 0, b, m, m', h => by
    have h' : exec C .skip m = .ok (.ret v, m') := by cases b <;> exact h
    rw [exec_skip] at h'
    cases h'
  | n + 1, b, m, m', h => by
    cases b
    case seq a b =>
      rw [Stmt.upTo, exec_seq] at h
      rw [exec_seq]
      cases ha : exec C a m with
      | error e => rw [ha] at h; cases h
      | ok p =>
        obtain ⟨o, m1⟩ := p
        rw [ha] at h
        cases o with
        | next => exact exec_split_ret C v n b m1 m' h
        | brk => cases h
        | ret v => exact h
    all_goals
      have h' : exec C .skip m = .ok (.ret v, m') := h
      rw [exec_skip] at h'
      cases h'

theorem sf_of_num (v : Sf) : sfOf? ((Sf.num v : Nat) : Int) = some v := by cases v <;> rfl
theorem bw_of_num (v : Bw) : bwOf? ((Bw.num v : Nat) : Int) = some v := by cases v <;> rfl
theorem cr_of_num (v : Cr) : crOf? ((Cr.num v : Nat) : Int) = some v := by cases v <;> rfl
theorem sf_num_lt (v : Sf) : Sf.num v < 7 := by cases v <;> decide

theorem put_pkt_sf (s : St) (x : Extra) (v : Sf) : (enc s x).put "pkt_params.sf" [.int .u32 (Sf.num v : Nat)] = enc { s with pp := { s.pp with sf := v } } x := rfl

theorem field_of (r : Ref) (f : String) (m : Mem World) (t : Ty) (n : Int) (h : loadRef { r with obj := r.obj ++ f } m = .ok (.int t n, m)) : field r f m = .ok (n, m) := by
  unfold field
  rw [bind_andThen, h]
  rfl

theorem params_of (s : St) (x : Extra) (fs : List Objs) (w : World) : readParams ⟨none, "pkt_params", 0⟩ ⟨enc s x, fs, w⟩ = .ok (s.pp, ⟨enc s x, fs, w⟩) := by
  have h1 : field ⟨none, "pkt_params", 0⟩ ".sf" ⟨enc s x, fs, w⟩ = .ok ((Sf.num s.pp.sf : Nat), ⟨enc s x, fs, w⟩) := rfl
  have h2 : field ⟨none, "pkt_params", 0⟩ ".bw" ⟨enc s x, fs, w⟩ = .ok ((Bw.num s.pp.bw : Nat), ⟨enc s x, fs, w⟩) := rfl
  have h3 : field ⟨none, "pkt_params", 0⟩ ".cr" ⟨enc s x, fs, w⟩ = .ok ((Cr.num s.pp.cr : Nat), ⟨enc s x, fs, w⟩) := rfl
  have h4 : field ⟨none, "pkt_params", 0⟩ ".preamble_len" ⟨enc s x, fs, w⟩ = .ok (s.pp.preambleLen.toNat, ⟨enc s x, fs, w⟩) := rfl
  have hb (b : Bool) : decide ((if b = true then (1 : Int) else 0) ≠ 0) = b := by cases b <;> rfl
  have h5 : field ⟨none, "pkt_params", 0⟩ ".crc_on" ⟨enc s x, fs, w⟩ = .ok (if s.pp.crcOn = true then 1 else 0, ⟨enc s x, fs, w⟩) := rfl
  have h6 : field ⟨none, "pkt_params", 0⟩ ".inverted_iq" ⟨enc s x, fs, w⟩ = .ok (if s.pp.invertedIq = true then 1 else 0, ⟨enc s x, fs, w⟩) := rfl
  have h7 : field ⟨none, "pkt_params", 0⟩ ".implicit_header" ⟨enc s x, fs, w⟩ = .ok (if s.pp.implicitHeader = true then 1 else 0, ⟨enc s x, fs, w⟩) := rfl
  simp only [readParams, bind_andThen, h1, h2, h3, h4, h5, h6, h7, andThen_ok, ofOption, pure_apply, sf_of_num, bw_of_num, cr_of_num, hb]
  have h8 : BitVec.ofInt 16 (s.pp.preambleLen.toNat : Int) = s.pp.preambleLen := by
    rw [BitVec.ofInt_natCast, BitVec.ofNat_toNat, BitVec.setWidth_eq]
  rw [h8]

@[csem] theorem host_radio_setup (I : Input) (L k : Nat) (s : St) (x : Extra) (fs : List Objs) (w : World) : call (host I) Src.prog L (k + 1) "radio.setup" [.ptr ⟨none, "pkt_params", 0⟩] ⟨enc s x, fs, w⟩ =
    .ok (.null, ⟨enc s x, fs, w.say (.setup s.pp)⟩) := by
  rw [call_lib (host I) find_radio_setup]
  show M.bind (readParams ⟨none, "pkt_params", 0⟩) (fun p => emitV (.setup p)) _ = _
  rw [bind_andThen, params_of]
  rfl

theorem cell_dr_sf (m : Mem ω) (d : Nat) (sf : Sf) (bw : Bw) (h : drTable d = some (sf, bw)) :
    cell m (d : Int) (some [.int .u32 6, .int .u32 5, .int .u32 4, .int .u32 3, .int .u32 2, .int .u32 1]) = .ok (.int .u32 (Sf.num sf : Nat), m) := by
  unfold drTable at h
  split at h <;> first | (injection h with h; injection h with h _; subst h; rfl) | cases h

theorem cell_dr_bw (m : Mem ω) (d : Nat) (sf : Sf) (bw : Bw) (h : drTable d = some (sf, bw)) :
    cell m (d : Int) (some [.int .u32 0, .int .u32 0, .int .u32 0, .int .u32 0, .int .u32 0, .int .u32 0]) = .ok (.int .u32 0, m) ∧ bw = .bw125 := by
  unfold drTable at h
  split at h <;> first | (injection h with h; injection h with _ h; subst h; exact ⟨rfl, rfl⟩) | cases h

end

/-- The bytes `v` at the start of a buffer. -/
def over (fr v : Bytes) : Bytes := v ++ fr.drop v.length

theorem over_nil (fr : Bytes) : over fr [] = fr := rfl

theorem over_length (fr v : Bytes) (h : v.length ≤ fr.length) : (over fr v).length = fr.length := by
  unfold over
  simp
  omega

theorem over_set (fr v : Bytes) (b : Byte) (n : Nat) (hn : n = v.length) (h : v.length < fr.length) : (over fr v).set n b = over fr (v ++ [b]) := by
  subst hn
  unfold over
  rw [List.set_append_right _ _ (Nat.le_refl _), Nat.sub_self, List.append_assoc]
  congr 1
  rw [List.drop_eq_getElem_cons h, List.set_cons_zero, List.length_append]
  rfl

theorem over_blit (fr v l : Bytes) (n : Nat) (hn : n = v.length) (h : v.length + l.length ≤ fr.length) : blit (over fr v) n l = some (over fr (v ++ l)) := by
  subst hn
  unfold blit
  rw [over_length _ _ (by omega), if_pos h]
  unfold over
  rw [List.take_append_of_le_length (Nat.le_refl _), List.take_length, List.drop_append, List.drop_of_length_le (by omega)]
  simp [List.append_assoc]

theorem blit_over (fr v : Bytes) (h : v.length ≤ fr.length) : blit fr 0 v = some (over fr v) := by
  have := over_blit fr [] v 0 rfl (by simpa using h)
  simpa [over_nil] using this

theorem over_load {ω : Type} (s : St) (x : Extra) (fs : List Objs) (w : ω) (fr v : Bytes) (hs : s.frame = over fr v) (h : v.length ≤ fr.length) :
    loads ⟨none, "uw_frame", 0⟩ v.length (⟨enc s x, fs, w⟩ : Mem ω) = .ok (v.map byteVal, ⟨enc s x, fs, w⟩) := by
  have := loads_bytes (m := (⟨enc s x, fs, w⟩ : Mem ω)) (fr := none) (o := "uw_frame") (l := s.frame) (off := 0) (n := v.length) rfl (by rw [hs, over_length _ _ h]; omega)
  rw [hs, List.drop_zero] at this
  have ht : (over fr v).take v.length = v := by unfold over; rw [List.take_append_of_le_length (Nat.le_refl _), List.take_length]
  rw [ht] at this
  exact this

/-- Bytes written into a buffer. -/
def putAt (fr : Bytes) (n : Nat) (l : Bytes) : Bytes := (blit fr n l).getD fr

theorem byteVal_inj : ∀ (l l' : Bytes), l.map byteVal = l'.map byteVal → l = l'
  | [], [], _ => rfl
  | [], _ :: _, h => by cases h
  | _ :: _, [], h => by cases h
  | a :: l, b :: l', h => by
    simp only [List.map_cons, List.cons.injEq] at h
    rw [byteVal_inj l l' h.2]
    have h1 := h.1
    unfold byteVal at h1
    injection h1 with _ h1
    have : a = b := BitVec.eq_of_toNat_eq (by omega)
    rw [this]

section
variable {ω : Type} (g : Objs) (fs : List Objs) (w : ω) (o : String) (off : Int) (v : Bytes)

/-- Write a global buffer whose cells are `l`. -/
noncomputable def storesAt (l : Option (List Val)) : Except Fault (Unit × Mem ω) :=
  open Classical in
  match l with
  | none => stores ⟨none, o, off⟩ (v.map byteVal) ⟨g, fs, w⟩
  | some l => if h : ∃ fr : Bytes, l = fr.map byteVal ∧ 0 ≤ off ∧ off + v.length ≤ fr.length then .ok ((), ⟨g.put o ((putAt h.choose off.toNat v).map byteVal), fs, w⟩)
    else stores ⟨none, o, off⟩ (v.map byteVal) ⟨g, fs, w⟩

@[csem] theorem stores_glob : stores ⟨none, o, off⟩ (v.map byteVal) (⟨g, fs, w⟩ : Mem ω) = storesAt g fs w o off v (g.get o) := by
  unfold storesAt
  split
  · rfl
  · next l hl =>
    split
    · next h =>
      obtain ⟨h1, h2, h3⟩ := h.choose_spec
      generalize h.choose = fr at h1 h2 h3
      obtain ⟨n, rfl⟩ := Int.eq_ofNat_of_zero_le h2
      have hb : blit fr n v = some (putAt fr n v) := by
        unfold putAt blit
        rw [if_pos (by omega)]
        rfl
      have := stores_bytes (m := (⟨g, fs, w⟩ : Mem ω)) (fr := none) (o := o) (l := fr) (by rw [getObj_glob, hl, h1]) hb
      rw [Int.toNat_natCast]
      exact this
    · rfl

@[csem] theorem stores_at (fr : Bytes) (h0 : 0 ≤ off) (h1 : off + v.length ≤ fr.length) : storesAt g fs w o off v (some (fr.map byteVal)) = .ok ((), ⟨g.put o ((putAt fr off.toNat v).map byteVal), fs, w⟩) := by
  unfold storesAt
  have h : ∃ fr' : Bytes, fr.map byteVal = fr'.map byteVal ∧ 0 ≤ off ∧ off + v.length ≤ fr'.length := ⟨fr, rfl, h0, h1⟩
  simp only
  rw [dif_pos h, ← byteVal_inj _ _ h.choose_spec.1]
end

theorem over_put (fr v l : Bytes) (n : Nat) (hn : n = v.length) (h : v.length + l.length ≤ fr.length) : putAt (over fr v) n l = over fr (v ++ l) := by
  unfold putAt
  rw [over_blit fr v l n hn h]
  rfl

end Uwan.C
