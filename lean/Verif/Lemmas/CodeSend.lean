import Verif.Lemmas.CodeJoin

/-! # uwan_send_frame -/

namespace Uwan.C

section
variable (I : Input) (L k : Nat) (s : St) (x : Extra) (fs : List Objs) (w : World)

/-- The parameters of `uwan_send_frame`. -/
abbrev sendArgs (p : Byte) (r : Ref) (n : Nat) (c : Bool) : Objs := [("f_port", [byteVal p]), ("payload", [.ptr r]), ("pld_len", [.int .u8 n]), ("confirm", [boolVal c])]

theorem send_busy (h : s.phase ≠ .idle) (p : Byte) (r : Ref) (n : Nat) (c : Bool) : exec ⟨host I, call (host I) Src.prog L (k + 3), L⟩ (Src.uwan_send_frame.body.upTo 3) ⟨enc s x, sendArgs p r n c :: fs, w⟩ =
    .ok (.ret (some (.int .i32 1)), ⟨enc s x, (("offset", [.int .u8 0]) :: sendArgs p r n c) :: fs, w⟩) := by
  unfold Src.uwan_send_frame
  cases hp : s.phase <;> first | exact absurd hp h | crun [Stmt.upTo, hp]

theorem send_none (hp : s.phase = .idle) (p : Byte) (r : Ref) (n : Nat) (c : Bool)
    (hc : ∀ fs', call (host I) Src.prog L (k + 3) "channels_get_next" [] ⟨enc s x, fs', w⟩ = .ok (.int .u32 0, ⟨enc s x, fs', afterNext s.chan w⟩)) :
    exec ⟨host I, call (host I) Src.prog L (k + 3), L⟩ (Src.uwan_send_frame.body.upTo 6) ⟨enc s x, sendArgs p r n c :: fs, w⟩ =
    .ok (.ret (some (.int .i32 3)), ⟨enc s x, (("frequency", [.int .u32 0]) :: ("offset", [.int .u8 0]) :: sendArgs p r n c) :: fs, afterNext s.chan w⟩) := by
  unfold Src.uwan_send_frame
  crun [Stmt.upTo, hp, hc]

theorem send_long (hp : s.phase = .idle) (f : U32) (hf : f ≠ 0) (w' : World)
    (hc : ∀ fs', call (host I) Src.prog L (k + 3) "channels_get_next" [] ⟨enc s x, fs', w⟩ = .ok (.int .u32 f.toNat, ⟨enc s x, fs', w'⟩))
    (hd : s.session.dr < 4294967296) (hd' : s.defaultDr < 4294967296) (hq : s.mac.queue.length < 256)
    (p : Byte) (r : Ref) (n : Nat) (c : Bool) (hn : n > getMaxPayloadSize s) :
    exec ⟨host I, call (host I) Src.prog L (k + 3), L⟩ (Src.uwan_send_frame.body.upTo 7) ⟨enc s x, sendArgs p r n c :: fs, w⟩ =
    .ok (.ret (some (.int .i32 7)), ⟨enc s x, (("frequency", [u32Val f]) :: ("offset", [.int .u8 0]) :: sendArgs p r n c) :: fs, w'⟩) := by
  unfold Src.uwan_send_frame
  have h0 : (f.toNat : Int) ≠ 0 := by
    intro h
    apply hf
    apply BitVec.eq_of_toNat_eq
    simpa using h
  have h1 := f.isLt
  have hn1 : ((Phase.num s.phase : Nat) : Int) = 1 := by rw [hp]; rfl
  have hg := fun fs' w => run_uwan_get_max_payload_size I L k s x fs' w hd hd' hq
  crun [Stmt.upTo, hn1, hc, hg]

theorem send_empty (hp : s.phase = .idle) (f : U32) (hf : f ≠ 0) (w' : World)
    (hc : ∀ fs', call (host I) Src.prog L (k + 3) "channels_get_next" [] ⟨enc s x, fs', w⟩ = .ok (.int .u32 f.toNat, ⟨enc s x, fs', w'⟩))
    (hd : s.session.dr < 4294967296) (hd' : s.defaultDr < 4294967296) (hq : s.mac.queue.length = 0)
    (p : Byte) (r : Ref) (c : Bool) :
    ∃ l, exec ⟨host I, call (host I) Src.prog L (k + 3), L⟩ (Src.uwan_send_frame.body.upTo 10) ⟨enc s x, sendArgs p r 0 c :: fs, w⟩ =
    .ok (.ret (some (.int .i32 7)), ⟨enc s x, l :: fs, w'⟩) := by
  refine ⟨("mac_pld_size", [.int .u8 0]) :: ("frequency", [u32Val f]) :: ("offset", [.int .u8 0]) :: sendArgs p r 0 c, ?_⟩
  unfold Src.uwan_send_frame
  have h0 : (f.toNat : Int) ≠ 0 := by
    intro h
    apply hf
    apply BitVec.eq_of_toNat_eq
    simpa using h
  have h1 := f.isLt
  have hn1 : ((Phase.num s.phase : Nat) : Int) = 1 := by rw [hp]; rfl
  have hg := fun fs' w => run_uwan_get_max_payload_size I L k s x fs' w hd hd' (by omega)
  have hg' := fun fs' w => run_mac_get_payload_size (H := host I) (L := L) (k := k + 2) (s := s) (x := x) (fs := fs') (w := w) (by omega)
  simp only [hq] at hg'
  crun [Stmt.upTo, hn1, hc, hg, hg', Int.ofNat_zero, Int.natCast_zero]

/-- The state when `uwan_send_frame` starts to write the frame. -/
def sendReady (s : St) (sf : Sf) (bw : Bw) : St := { s with pp := { s.pp with sf := sf, bw := bw, invertedIq := false } }

/-- The local variables at that point. -/
abbrev sendVars (s : St) (f : U32) (o : Int) (p : Byte) (r : Ref) (n : Nat) (c : Bool) : Objs :=
  ("dr", [.ptr ⟨none, "uw_dr_table", currentDr s⟩]) :: ("mac_pld_size", [.int .u8 s.mac.queue.length]) :: ("frequency", [u32Val f]) :: ("offset", [.int .u8 o]) :: sendArgs p r n c

theorem send_radio (hp : s.phase = .idle) (f : U32) (hf : f ≠ 0) (w' : World)
    (hc : ∀ fs', call (host I) Src.prog L (k + 3) "channels_get_next" [] ⟨enc s x, fs', w⟩ = .ok (.int .u32 f.toNat, ⟨enc s x, fs', w'⟩))
    (hd : s.session.dr < 4294967296) (hd' : s.defaultDr < 4294967296) (hq : s.mac.queue.length < 256) (hm : getMaxPayloadSize s < 256)
    (p : Byte) (r : Ref) (n : Nat) (c : Bool) (hn : ¬ n > getMaxPayloadSize s) (he : ¬ (n = 0 ∧ s.mac.queue.length = 0)) (hr : s.region.isSome = true)
    (hpw : s.txPower.toNat < 8) (sf : Sf) (bw : Bw) (ht : drTable (currentDr s) = some (sf, bw)) (l : List Ev) (ha : applyTxPower s = .ok l) :
    exec ⟨host I, call (host I) Src.prog L (k + 3), L⟩ (Src.uwan_send_frame.body.upTo 18) ⟨enc s x, sendArgs p r n c :: fs, w⟩ =
    .ok (.next, ⟨enc (sendReady s sf bw) x, sendVars s f 0 p r n c :: fs,
      w'.did w'.cmac ([.setFrequency f, .setup (sendReady s sf bw).pp] ++ l)⟩) := by
  unfold Src.uwan_send_frame
  have h0 : (f.toNat : Int) ≠ 0 := by
    intro h
    apply hf
    apply BitVec.eq_of_toNat_eq
    simpa using h
  have h1 := f.isLt
  have hs := sf_num_lt sf
  obtain ⟨hb, rfl⟩ := cell_dr_bw (ω := World) ⟨enc s x, fs, w⟩ _ _ _ ht
  have hb' := fun m : Mem World => (cell_dr_bw m _ _ _ ht).1
  have ha' : applyTxPower { s with pp := { s.pp with sf := sf, bw := .bw125, invertedIq := false } } = .ok l := ha
  have ht' := fun fs' w => run_apply_tx_power I L (k + 1) { s with pp := { s.pp with sf := sf, bw := .bw125, invertedIq := false } } x fs' w hr hpw l ha'
  dsimp only at ht'
  have hn1 : ((Phase.num s.phase : Nat) : Int) = 1 := by rw [hp]; rfl
  have hg := fun fs' w => run_uwan_get_max_payload_size I L k s x fs' w hd hd' hq
  have hg' := fun fs' w => run_mac_get_payload_size (H := host I) (L := L) (k := k + 2) (s := s) (x := x) (fs := fs') (w := w) hq
  have hg2 := fun fs' w => run_get_current_dr (H := host I) (L := L) (k := k + 1) (s := s) (x := x) (fs := fs') (w := w) hd hd'
  by_cases hz : n = 0
  · have hq0 : s.mac.queue.length ≠ 0 := fun h => he ⟨hz, h⟩
    subst hz
    crun [Stmt.upTo, hn1, hc, hg, hg', hg2, hr, cell_dr_sf _ _ _ _ ht, hb', put_pkt_sf, ht']
    simp [World.did, World.say, sendReady]
    rfl
  · crun [Stmt.upTo, hn1, hc, hg, hg', hg2, hr, cell_dr_sf _ _ _ _ ht, hb', put_pkt_sf, ht']
    simp [World.did, World.say, sendReady]
    rfl

/-- The MAC header and the device address. -/
def sendHead (s : St) (c : Bool) : Bytes := [(if c then 4 else 2 : Byte) <<< 5, byteOf s.session.devAddr 0, byteOf s.session.devAddr 1, byteOf s.session.devAddr 2, byteOf s.session.devAddr 3]

theorem send_head (hfr : s.frame.length = 255) (s0 : St) (f : U32) (p : Byte) (r : Ref) (n : Nat) (c : Bool) :
    exec ⟨host I, call (host I) Src.prog L (k + 3), L⟩ ((Src.uwan_send_frame.body.after 18).upTo 7) ⟨enc s x, sendVars s0 f 0 p r n c :: fs, w⟩ =
    .ok (.next, ⟨enc { s with frame := over s.frame (sendHead s c) } x, (("mtype", [.int .u8 (if c then 4 else 2)]) :: sendVars s0 f 5 p r n c) :: fs, w⟩) := by
  unfold Src.uwan_send_frame
  obtain ⟨b0, hb0⟩ : ∃ b : Byte, b = (if c then 4 else 2 : Byte) <<< 5 := ⟨_, rfl⟩
  unfold sendHead
  rw [← hb0]
  obtain ⟨f1, e1⟩ : ∃ f, f = over s.frame [b0] := ⟨_, rfl⟩
  obtain ⟨f2, e2⟩ : ∃ f, f = over s.frame ([b0] ++ [byteOf s.session.devAddr 0]) := ⟨_, rfl⟩
  obtain ⟨f3, e3⟩ : ∃ f, f = over s.frame ([b0] ++ [byteOf s.session.devAddr 0] ++ [byteOf s.session.devAddr 1]) := ⟨_, rfl⟩
  obtain ⟨f4, e4⟩ : ∃ f, f = over s.frame ([b0] ++ [byteOf s.session.devAddr 0] ++ [byteOf s.session.devAddr 1] ++ [byteOf s.session.devAddr 2]) := ⟨_, rfl⟩
  obtain ⟨f5, e5⟩ : ∃ f, f = over s.frame ([b0] ++ [byteOf s.session.devAddr 0] ++ [byteOf s.session.devAddr 1] ++ [byteOf s.session.devAddr 2] ++ [byteOf s.session.devAddr 3]) := ⟨_, rfl⟩
  have h1 : s.frame.set 0 b0 = f1 := by rw [e1]; exact over_set s.frame [] b0 0 rfl (by simp [hfr])
  have h2 : f1.set 1 (byteOf s.session.devAddr 0) = f2 := by rw [e1, e2]; exact over_set _ _ _ _ (by simp) (by simp [hfr])
  have h3 : f2.set 2 (byteOf s.session.devAddr 1) = f3 := by rw [e2, e3]; exact over_set _ _ _ _ (by simp) (by simp [hfr])
  have h4 : f3.set 3 (byteOf s.session.devAddr 2) = f4 := by rw [e3, e4]; exact over_set _ _ _ _ (by simp) (by simp [hfr])
  have h5 : f4.set 4 (byteOf s.session.devAddr 3) = f5 := by rw [e4, e5]; exact over_set _ _ _ _ (by simp) (by simp [hfr])
  have l1 : f1.length = 255 := by rw [e1, over_length _ _ (by simp [hfr]), hfr]
  have l2 : f2.length = 255 := by rw [e2, over_length _ _ (by simp [hfr]), hfr]
  have l3 : f3.length = 255 := by rw [e3, over_length _ _ (by simp [hfr]), hfr]
  have l4 : f4.length = 255 := by rw [e4, over_length _ _ (by simp [hfr]), hfr]
  have l5 : f5.length = 255 := by rw [e5, over_length _ _ (by simp [hfr]), hfr]
  cases c
  · have hz : BitVec.ofInt 8 (ofBits Ty.i32 (bits 64 ||| bits 0) % 256) = b0 := by rw [hb0]; decide
    have hs : ∀ m : Mem World, shift (host I) .shl .i32 2 5 m = .ok (.int .i32 64, m) := fun m => rfl
    crun [hs, Stmt.upTo, Stmt.after, hz, h1, h2, h3, h4, h5]
    simp [e5]
    rfl
  · have hz : BitVec.ofInt 8 (ofBits Ty.i32 (bits 128 ||| bits 0) % 256) = b0 := by rw [hb0]; decide
    have hs : ∀ m : Mem World, shift (host I) .shl .i32 4 5 m = .ok (.int .i32 128, m) := fun m => rfl
    crun [hs, Stmt.upTo, Stmt.after, hz, h1, h2, h3, h4, h5]
    simp [e5]
    rfl

theorem or_low (c : Byte) (n : Nat) (hn : n ≤ 15) : ofBits .i32 (bits (c.toNat : Int) ||| bits (ofBits .i32 (bits (n : Int) &&& bits 15))) % 256 = ((c ||| (BitVec.ofNat 8 n &&& 0xf)).toNat : Int) := by
  have h : ∀ c : Fin 256, ∀ n : Fin 16, ofBits .i32 (bits ((BitVec.ofFin (w := 8) c).toNat : Int) ||| bits (ofBits .i32 (bits (n.val : Int) &&& bits 15))) % 256 = ((BitVec.ofFin (w := 8) c ||| (BitVec.ofNat 8 n.val &&& 0xf)).toNat : Int) := by
    decide +kernel
  exact h c.toFin ⟨n, by omega⟩

theorem send_ctrl (hd : s.session.dr < 4294967296) (hq : s.mac.queue.length ≤ 15) (fr v : Bytes) (hfr : s.frame = over fr v) (hl : fr.length = 255) (hv : v.length = 5) (s0 : St) (f : U32) (p : Byte) (r : Ref) (n : Nat) (c : Bool) (t : List Val) :
    exec ⟨host I, call (host I) Src.prog L (k + 3), L⟩ (((Src.uwan_send_frame.body.after 18).after 7).upTo 7) ⟨enc s x, (("mtype", t) :: sendVars s0 f 5 p r n c) :: fs, w⟩ =
    .ok (.next, ⟨enc { s with frame := over fr (v ++ [fCtrl s]), session := { s.session with ackRequired := false } } x,
      (("f_ctrl", [.int .u8 (fCtrl s).toNat]) :: ("mtype", t) :: sendVars s0 f 6 p r n c) :: fs, w⟩) := by
  unfold Src.uwan_send_frame
  have hg := fun fs' w => run_mac_get_payload_size (H := host I) (L := L) (k := k + 2) (s := s) (x := x) (fs := fs') (w := w) (by omega)
  have hg2 := fun fs' w => run_mac_get_payload_size (H := host I) (L := L) (k := k + 2) (s := { s with session := { s.session with ackRequired := false } }) (x := x) (fs := fs') (w := w) (show s.mac.queue.length < 256 by omega)
  have he := fun fs' w => run_uwan_adr_is_enabled (H := host I) (L := L) (k := k + 2) (s := s) (x := x) (fs := fs') (w := w)
  have hb := fun fs' w => run_adr_get_req_bit (H := host I) (L := L) (k := k + 2) (s := s) (x := x) (fs := fs') (w := w) hd
  have hlen : s.frame.length = 255 := by rw [hfr, over_length _ _ (by omega), hl]
  have hset : s.frame.set 5 (fCtrl s) = over fr (v ++ [fCtrl s]) := by rw [hfr]; exact over_set _ _ _ _ hv.symm (by omega)
  have hF (c : Byte) (hc : fCtrl s = c ||| (BitVec.ofNat 8 s.mac.queue.length &&& 0xf)) :
      ofBits .i32 (bits (c.toNat : Int) ||| bits (ofBits .i32 (bits (s.mac.queue.length : Int) &&& bits 15))) % 256 = ((fCtrl s).toNat : Int) := by
    rw [hc]; exact or_low c _ hq
  have hB : BitVec.ofInt 8 ((fCtrl s).toNat : Int) = fCtrl s := by rw [BitVec.ofInt_natCast, BitVec.ofNat_toNat, BitVec.setWidth_eq]
  have o1 : ofBits Ty.i32 (bits 0 ||| bits 128) % 256 = 128 := by decide
  have o2 : ofBits Ty.i32 (bits 0 ||| bits 64) % 256 = 64 := by decide
  have o3 : ofBits Ty.i32 (bits 128 ||| bits 64) % 256 = 192 := by decide
  have o4 : ofBits Ty.i32 (bits 0 ||| bits 32) % 256 = 32 := by decide
  have o5 : ofBits Ty.i32 (bits 128 ||| bits 32) % 256 = 160 := by decide
  have o6 : ofBits Ty.i32 (bits 64 ||| bits 32) % 256 = 96 := by decide
  have o7 : ofBits Ty.i32 (bits 192 ||| bits 32) % 256 = 224 := by decide
  dsimp only at hg2
  cases h1 : s.adr.enabled <;> cases h2 : adrGetReqBit s <;> cases h3 : s.session.ackRequired <;> simp only [h1, h2] at he hb
  · have hf := hF 0 (by simp [fCtrl, h1, h2, h3])
    simp only [show ((0 : Byte).toNat : Int) = 0 from rfl] at hf
    crun [Stmt.upTo, Stmt.after, hg, hg2, he, hb, h3, o1, o2, o3, o4, o5, o6, o7, hf, hB, hset]
    simp [← h3]
    rfl
  · have hf := hF 32 (by simp [fCtrl, h1, h2, h3])
    simp only [show ((32 : Byte).toNat : Int) = 32 from rfl] at hf
    crun [Stmt.upTo, Stmt.after, hg, hg2, he, hb, h3, o1, o2, o3, o4, o5, o6, o7, hf, hB, hset]
    rfl
  · have hf := hF 64 (by simp [fCtrl, h1, h2, h3])
    simp only [show ((64 : Byte).toNat : Int) = 64 from rfl] at hf
    crun [Stmt.upTo, Stmt.after, hg, hg2, he, hb, h3, o1, o2, o3, o4, o5, o6, o7, hf, hB, hset]
    simp [← h3]
    rfl
  · have hf := hF 96 (by simp [fCtrl, h1, h2, h3])
    simp only [show ((96 : Byte).toNat : Int) = 96 from rfl] at hf
    crun [Stmt.upTo, Stmt.after, hg, hg2, he, hb, h3, o1, o2, o3, o4, o5, o6, o7, hf, hB, hset]
    rfl
  · have hf := hF 128 (by simp [fCtrl, h1, h2, h3])
    simp only [show ((128 : Byte).toNat : Int) = 128 from rfl] at hf
    crun [Stmt.upTo, Stmt.after, hg, hg2, he, hb, h3, o1, o2, o3, o4, o5, o6, o7, hf, hB, hset]
    simp [← h3]
    rfl
  · have hf := hF 160 (by simp [fCtrl, h1, h2, h3])
    simp only [show ((160 : Byte).toNat : Int) = 160 from rfl] at hf
    crun [Stmt.upTo, Stmt.after, hg, hg2, he, hb, h3, o1, o2, o3, o4, o5, o6, o7, hf, hB, hset]
    rfl
  · have hf := hF 192 (by simp [fCtrl, h1, h2, h3])
    simp only [show ((192 : Byte).toNat : Int) = 192 from rfl] at hf
    crun [Stmt.upTo, Stmt.after, hg, hg2, he, hb, h3, o1, o2, o3, o4, o5, o6, o7, hf, hB, hset]
    simp [← h3]
    rfl
  · have hf := hF 224 (by simp [fCtrl, h1, h2, h3])
    simp only [show ((224 : Byte).toNat : Int) = 224 from rfl] at hf
    crun [Stmt.upTo, Stmt.after, hg, hg2, he, hb, h3, o1, o2, o3, o4, o5, o6, o7, hf, hB, hset]
    rfl
end
end Uwan.C
