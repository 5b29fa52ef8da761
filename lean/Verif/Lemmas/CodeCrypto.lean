import Verif.Lemmas.CodeDispatch

/-! # The cryptographic functions of `stack.c` -/

namespace Uwan.C

section
variable {ω : Type}

/-- Write cell `n` of an object. -/
def setAt (m : Mem ω) (fr : Option Nat) (x : String) (k : Nat) (v : Val) (l : List Val) (old : Option Val) : Except Fault (Val × Mem ω) :=
  match old with
  | some old => setTo m fr x k l (assign old v)
  | none => .error .oob

theorem setCell_at (m : Mem ω) (fr : Option Nat) (x : String) (k : Int) (v : Val) (l : List Val) (h : 0 ≤ k) :
    setCell m fr x k v (some l) = setAt m fr x k.toNat v l l[k.toNat]? := by
  unfold setAt
  cases hv : l[k.toNat]? with
  | some old => exact setCell_of h hv
  | none =>
    simp only [setCell, hv]
    split <;> rfl

@[csem] theorem setAt_some (m : Mem ω) (fr : Option Nat) (x : String) (k : Nat) (v : Val) (l : List Val) (old : Val) : setAt m fr x k v l (some old) = setTo m fr x k l (assign old v) := (rfl)

theorem byte_lt (b : Byte) : (b.toNat : Int) < 256 := by have := b.isLt; omega

theorem byteOf_gen (v : U32) (i : Nat) : Ty.u8.conv (ofBits .u32 (bits ((v.toNat : Int) / 2 ^ (8 * i)) &&& bits 255)) = ((byteOf v i).toNat : Int) := by
  have h1 : bits ((v.toNat : Int) / 2 ^ (8 * i)) = v >>> (8 * i) := by
    apply BitVec.eq_of_toNat_eq
    have hd : ((v.toNat : Int) / 2 ^ (8 * i)) = ((v.toNat / 2 ^ (8 * i) : Nat) : Int) := by simp
    have := v.isLt
    have hle : v.toNat / 2 ^ (8 * i) ≤ v.toNat := Nat.div_le_self _ _
    rw [hd, bits, BitVec.toNat_ofInt, BitVec.toNat_ushiftRight, Nat.shiftRight_eq_div_pow]
    generalize v.toNat / 2 ^ (8 * i) = q at *
    omega
  rw [h1]
  have h2 : ∀ a : BitVec 32, Ty.u8.conv (ofBits .u32 (a &&& bits 255)) = ((a.setWidth 8).toNat : Int) := by
    intro a
    have h3 : (a &&& bits 255).toNat = a.toNat % 256 := by
      rw [BitVec.toNat_and]
      exact Nat.and_two_pow_sub_one_eq_mod a.toNat 8
    show ((if Ty.u32 = Ty.u32 then ((a &&& bits 255).toNat : Int) else _) % 256) = _
    rw [if_pos rfl, h3, BitVec.toNat_setWidth]
    omega
  exact h2 _

@[csem high] theorem byteOf_0 (v : U32) : Ty.u8.conv (ofBits .u32 (bits (v.toNat : Int) &&& bits 255)) = ((byteOf v 0).toNat : Int) := by
  have := byteOf_gen v 0
  simpa using this
@[csem high] theorem byteOf_1 (v : U32) : Ty.u8.conv (ofBits .u32 (bits ((v.toNat : Int) / 2 ^ 8) &&& bits 255)) = ((byteOf v 1).toNat : Int) := byteOf_gen v 1
@[csem high] theorem byteOf_2 (v : U32) : Ty.u8.conv (ofBits .u32 (bits ((v.toNat : Int) / 2 ^ 16) &&& bits 255)) = ((byteOf v 2).toNat : Int) := byteOf_gen v 2
@[csem high] theorem byteOf_3 (v : U32) : Ty.u8.conv (ofBits .u32 (bits ((v.toNat : Int) / 2 ^ 24) &&& bits 255)) = ((byteOf v 3).toNat : Int) := byteOf_gen v 3
@[csem high] theorem operand_u32_bv (v : U32) : Ty.u32.operand (v.toNat : Int) = v.toNat := by
  have := v.isLt
  exact operand_u32_of _ (Int.natCast_nonneg _) (by omega)
@[csem high] theorem operand_u32_shr (v : U32) (n : Nat) : Ty.u32.operand ((v.toNat : Int) / 2 ^ n) = (v.toNat : Int) / 2 ^ n := by
  have := v.isLt
  have hle : v.toNat / 2 ^ n ≤ v.toNat := Nat.div_le_self _ _
  have hd : ((v.toNat : Int) / 2 ^ n) = ((v.toNat / 2 ^ n : Nat) : Int) := by simp
  rw [hd]
  generalize v.toNat / 2 ^ n = q at *
  exact operand_u32_of _ (by omega) (by omega)

/-- A block of 16 bytes. -/
theorem replicate16 (a : Val) : List.replicate 16 a = [a, a, a, a, a, a, a, a, a, a, a, a, a, a, a, a] := rfl
end

section
variable {ω : Type}

theorem mapM_bytes : ∀ l : Bytes, (l.map byteVal).mapM valByte? = some l
  | [] => rfl
  | b :: l => by
    have h : valByte? (byteVal b) = some b := by simp [byteVal, valByte?]
    simp only [List.map_cons, List.mapM_cons, h, mapM_bytes l]
    rfl
end

section
variable (I : Input) (L k : Nat) (s : St) (x : Extra) (g f : Objs) (fs : List Objs) (w : World)

/-- What the environment does with the bytes read. -/
def bytesThen {α : Type} (l : List Val) (f : Bytes → Comp α) : Comp α := M.bind (ofOption .stuck (l.mapM valByte?)) f

@[csem] theorem bytesThen_bytes {α : Type} (l : Bytes) (f : Bytes → Comp α) (m : Mem World) : bytesThen (l.map byteVal) f m = f l m := by
  unfold bytesThen
  rw [mapM_bytes]
  rfl

/-- What the environment does with the block read. -/
def blockThen {α : Type} (l : List Val) (f : Block → Comp α) : Comp α := M.bind (M.bind (ofOption .stuck (l.mapM valByte?)) fun l => ofOption .stuck (toBlock? l)) f

@[csem] theorem blockThen_block {α : Type} (b : Block) (f : Block → Comp α) (m : Mem World) : blockThen (b.toList.map byteVal) f m = f b m := by
  unfold blockThen
  rw [mapM_bytes]
  have h : toBlock? b.toList = some b := block_toList b
  show M.bind (ofOption .stuck (toBlock? b.toList)) f m = _
  rw [h]
  rfl

def sayV (e : Ev) (v : Val) : Comp Val := fun m => .ok (v, { m with io := m.io.say e })
@[csem] theorem sayV_apply (e : Ev) (v : Val) : sayV e v ⟨g, fs, w⟩ = .ok (v, ⟨g, fs, w.say e⟩) := rfl

@[csem] theorem on_aes_new (r : Ref) (m : Mem World) : call (host I) Src.prog L (k + 1) "hal.crypto_aes_create_context" [.ptr r] m =
    andThen (loads r 16 m) fun l => blockThen l fun b => sayV (.aesNew b) (.opaque (keyInts b)) := by
  rw [call_lib (host I) find_hal_crypto_aes_create_context]
  show M.bind (M.bind (readBytes r 16) fun l => ofOption .stuck (toBlock? l)) _ m = _
  unfold readBytes
  simp only [bind_andThen]
  cases loads r 16 m <;> rfl

@[csem] theorem on_aes_enc (key : Block) (d r : Ref) (m : Mem World) : call (host I) Src.prog L (k + 1) "hal.crypto_aes_encrypt" [.opaque (keyInts key), .ptr d, .ptr r] m =
    andThen (loads r 16 m) fun l => blockThen l fun b => M.bind (sayV (.aesEncrypt b) .null) fun _ => M.bind (stores d ((I.env.aes key b).toList.map byteVal)) fun _ => M.pure .null := by
  rw [call_lib (host I) find_hal_crypto_aes_encrypt]
  show M.bind (ofOption .stuck (intsKey? (keyInts key))) (fun k => M.bind (readBlock r) fun b => M.bind (emit (.aesEncrypt b)) fun _ =>
    M.bind (writeBytes d (I.env.aes k b).toList) fun _ => M.pure Val.null) _ = _
  rw [ints_key]
  show M.bind (M.bind (readBytes r 16) fun l => ofOption .stuck (toBlock? l)) _ m = _
  unfold readBytes
  simp only [bind_andThen]
  cases loads r 16 m <;> rfl

def cmacStart (b : Block) : Comp Val := fun m => .ok (.opaque [], { m with io := { m.io.say (.cmacNew b) with cmac := (b, []) } })
@[csem] theorem cmacStart_apply (b : Block) : cmacStart b ⟨g, fs, w⟩ = .ok (.opaque [], ⟨g, fs, { w.say (.cmacNew b) with cmac := (b, []) }⟩) := rfl
def cmacMore (l : Bytes) : Comp Val := fun m => .ok (.null, { m with io := { m.io.say (.cmacUpdate l) with cmac := (m.io.cmac.1, m.io.cmac.2 ++ l) } })
@[csem] theorem cmacMore_apply (l : Bytes) : cmacMore l ⟨g, fs, w⟩ = .ok (.null, ⟨g, fs, { w.say (.cmacUpdate l) with cmac := (w.cmac.1, w.cmac.2 ++ l) }⟩) := rfl

@[csem] theorem on_cmac_new (r : Ref) (m : Mem World) : call (host I) Src.prog L (k + 1) "hal.crypto_cmac_create_context" [.ptr r] m =
    andThen (loads r 16 m) fun l => blockThen l cmacStart := by
  rw [call_lib (host I) find_hal_crypto_cmac_create_context]
  show M.bind (M.bind (readBytes r 16) fun l => ofOption .stuck (toBlock? l)) _ m = _
  unfold readBytes
  simp only [bind_andThen]
  cases loads r 16 m <;> rfl

@[csem] theorem on_cmac_update (q : List Int) (r : Ref) (t : Ty) (n : Int) (m : Mem World) : call (host I) Src.prog L (k + 1) "hal.crypto_cmac_update" [.opaque q, .ptr r, .int t n] m =
    andThen (loads r n.toNat m) fun l => bytesThen l cmacMore := by
  rw [call_lib (host I) find_hal_crypto_cmac_update]
  show M.bind (readBytes r n.toNat) _ m = _
  unfold readBytes
  simp only [bind_andThen]
  cases loads r n.toNat m <;> rfl

@[csem] theorem on_cmac_finish (q : List Int) (d : Ref) : call (host I) Src.prog L (k + 1) "hal.crypto_cmac_finish" [.opaque q, .ptr d] ⟨g, fs, w⟩ =
    andThen (stores d ((I.env.cmac w.cmac.1 w.cmac.2).toList.map byteVal) ⟨g, fs, w.say .cmacFinish⟩) fun _ => M.pure .null := by
  rw [call_lib (host I) find_hal_crypto_cmac_finish]
  rfl

@[csem] theorem on_radio_tx (r : Ref) (t : Ty) (n : Int) (m : Mem World) : call (host I) Src.prog L (k + 1) "radio.tx" [.ptr r, .int t n] m =
    andThen (loads r (n % 256).toNat m) fun l => bytesThen l fun l => sayV (.tx l) .null := by
  rw [call_lib (host I) find_radio_tx]
  show M.bind (readBytes r (n % 256).toNat) _ m = _
  unfold readBytes
  simp only [bind_andThen]
  cases loads r (n % 256).toNat m <;> rfl

/-- Read from a local variable whose cells are `l`. -/
noncomputable def loadsOf (o : String) (n : Nat) (l : Option (List Val)) : Except Fault (List Val × Mem World) :=
  open Classical in
  match l with
  | none => loads ⟨some fs.length, o, 0⟩ n ⟨g, f :: fs, w⟩
  | some l => if Init l ∧ n ≤ l.length then .ok (l.take n, ⟨g, f :: fs, w⟩) else loads ⟨some fs.length, o, 0⟩ n ⟨g, f :: fs, w⟩

@[csem] theorem loads_local (o : String) (n : Nat) : loads ⟨some fs.length, o, 0⟩ n (⟨g, f :: fs, w⟩ : Mem World) = loadsOf g f fs w o n (f.get o) := by
  unfold loadsOf
  split
  · rfl
  · next l hl =>
    split
    · next h =>
      have := loads_cells (⟨g, f :: fs, w⟩ : Mem World) (some fs.length) o l (by rw [getObj_top]; exact hl) h.1 n 0 (by omega)
      simpa using this
    · rfl

@[csem] theorem loadsOf_block (o : String) (b : Block) : loadsOf g f fs w o 16 (some (b.toList.map byteVal)) = .ok (b.toList.map byteVal, ⟨g, f :: fs, w⟩) := by
  unfold loadsOf
  simp only
  rw [if_pos ⟨init_bytes _, by simp⟩, List.take_of_length_le (by simp)]

@[csem] theorem loadsOf_bytes (o : String) (n : Nat) (l : Bytes) (h : n ≤ l.length) :
    loadsOf g f fs w o n (some (l.map byteVal)) = .ok ((l.take n).map byteVal, ⟨g, f :: fs, w⟩) := by
  unfold loadsOf
  simp only
  rw [if_pos ⟨init_bytes _, by simpa using h⟩, List.map_take]

/-- Write a local variable whose cells are `l`. -/
noncomputable def storesOf (o : String) (v : Bytes) (l : Option (List Val)) : Except Fault (Unit × Mem World) :=
  open Classical in
  match l with
  | none => stores ⟨some fs.length, o, 0⟩ (v.map byteVal) ⟨g, f :: fs, w⟩
  | some l => if ByteCells l ∧ v.length = l.length then .ok ((), ⟨g, f.put o (v.map byteVal) :: fs, w⟩) else stores ⟨some fs.length, o, 0⟩ (v.map byteVal) ⟨g, f :: fs, w⟩

@[csem] theorem stores_local (o : String) (v : Bytes) : stores ⟨some fs.length, o, 0⟩ (v.map byteVal) (⟨g, f :: fs, w⟩ : Mem World) = storesOf g f fs w o v (f.get o) := by
  unfold storesOf
  split
  · rfl
  · next l hl =>
    split
    · next h =>
      have := stores_cells (some fs.length) o v (⟨g, f :: fs, w⟩ : Mem World) l (by rw [getObj_top]; exact hl) h.1 0 (by omega)
      simp only [putObj_top, List.take_zero, List.nil_append, Nat.zero_add, h.2, List.drop_length, List.append_nil] at this
      exact this
    · rfl

@[csem] theorem storesOf_block (o : String) (b : Block) : storesOf g f fs w o b.toList (some (List.replicate 16 (.uninit (some .u8)))) =
    .ok ((), ⟨g, f.put o (b.toList.map byteVal) :: fs, w⟩) := by
  unfold storesOf
  simp only
  rw [if_pos ⟨uninit_cells 16, by simp⟩]

@[csem] theorem storesOf_block' (o : String) (b c : Block) : storesOf g f fs w o b.toList (some (c.toList.map byteVal)) =
    .ok ((), ⟨g, f.put o (b.toList.map byteVal) :: fs, w⟩) := by
  unfold storesOf
  simp only
  rw [if_pos ⟨bytes_cells _, by simp⟩]

@[csem] theorem storesOf_block16 (o : String) (b : Block) : storesOf g f fs w o b.toList (some [.uninit (some .u8), .uninit (some .u8), .uninit (some .u8), .uninit (some .u8),
    .uninit (some .u8), .uninit (some .u8), .uninit (some .u8), .uninit (some .u8), .uninit (some .u8), .uninit (some .u8), .uninit (some .u8), .uninit (some .u8),
    .uninit (some .u8), .uninit (some .u8), .uninit (some .u8), .uninit (some .u8)]) =
    .ok ((), ⟨g, f.put o (b.toList.map byteVal) :: fs, w⟩) := storesOf_block g f fs w o b

/-- The world after a CMAC computation. -/
def World.did (c : Block × Bytes) (ev : List Ev) : World := { w with cmac := c, ev := w.ev ++ ev }

theorem run_calc_mic (hr : s.region.isSome = true) (g' : Objs) (fs' : List Objs) (mic msg key : Ref) (l : Bytes) (hl : l.length < 256) (kb : Block) (dir : Byte) (b0 : Bool) (t t' : Ty)
    (hk : ∀ f w, loads key 16 (⟨enc s x, f :: fs, w⟩ : Mem World) = .ok (kb.toList.map byteVal, ⟨enc s x, f :: fs, w⟩))
    (hm : ∀ f w, loads msg l.length (⟨enc s x, f :: fs, w⟩ : Mem World) = .ok (l.map byteVal, ⟨enc s x, f :: fs, w⟩))
    (hd : ∀ f w, stores mic ((calcMic I.env s.session l kb dir b0).1.map byteVal) (⟨enc s x, f :: fs, w⟩ : Mem World) = .ok ((), ⟨g', f :: fs', w⟩)) :
    ∃ c, call (host I) Src.prog L (k + 2) "calc_mic" [.ptr mic, .ptr msg, .int t l.length, .ptr key, .int t' dir.toNat, boolVal b0] ⟨enc s x, fs, w⟩ =
    .ok (.null, ⟨g', fs', w.did c (calcMic I.env s.session l kb dir b0).2⟩) := by
  rw [call_fun (host I) find_calc_mic]
  unfold Src.calc_mic
  have hdir := dir.isLt
  cases b0 with
  | false =>
    refine ⟨(kb, l), ?_⟩
    have hd' : ∀ f w, stores mic (((I.env.cmac kb l).toList.take 4).map byteVal) (⟨enc s x, f :: fs, w⟩ : Mem World) = .ok ((), ⟨g', f :: fs', w⟩) := hd
    have hlen : (I.env.cmac kb l).toList.length = 16 := by simp
    crun [hr, hk, hm, hd', List.nil_append]
    simp [World.did, World.say, calcMic]
  | true =>
    generalize hc : (if dir ≠ 0 then s.session.fCntDown else s.session.fCntUp) = fcnt at *
    refine ⟨(kb, (b0Block dir s.session.devAddr fcnt (BitVec.ofNat 8 l.length)).toList ++ l), ?_⟩
    have hb : [Val.int .u8 73, .int .u8 0, .int .u8 0, .int .u8 0, .int .u8 0, .int .u8 dir.toNat, .int .u8 (byteOf s.session.devAddr 0).toNat, .int .u8 (byteOf s.session.devAddr 1).toNat,
        .int .u8 (byteOf s.session.devAddr 2).toNat, .int .u8 (byteOf s.session.devAddr 3).toNat, .int .u8 (byteOf fcnt 0).toNat, .int .u8 (byteOf fcnt 1).toNat, .int .u8 (byteOf fcnt 2).toNat,
        .int .u8 (byteOf fcnt 3).toNat, .int .u8 0, .int .u8 l.length] = (b0Block dir s.session.devAddr fcnt (BitVec.ofNat 8 l.length)).toList.map byteVal := by
      have : ((BitVec.ofNat 8 l.length).toNat : Int) = l.length := by rw [BitVec.toNat_ofNat]; omega
      rw [← this]
      rfl
    have hlen : (I.env.cmac kb ((b0Block dir s.session.devAddr fcnt (BitVec.ofNat 8 l.length)).toList ++ l)).toList.length = 16 := by simp
    have hd' : ∀ f w, stores mic (((I.env.cmac kb ((b0Block dir s.session.devAddr fcnt (BitVec.ofNat 8 l.length)).toList ++ l)).toList.take 4).map byteVal) (⟨enc s x, f :: fs, w⟩ : Mem World) = .ok ((), ⟨g', f :: fs', w⟩) := by
      rw [← hc]
      exact hd
    by_cases hz : dir = 0
    · have hf : fcnt = s.session.fCntUp := by rw [← hc, hz]; rfl
      have hz' : dir.toNat = 0 := by rw [hz]; rfl
      crun [hr, hk, hm, hd', List.nil_append, replicate16, setCell_at, ← hf, hb]
      simp [World.did, World.say, calcMic]
      simp [hz, hf]
    · have hf : fcnt = s.session.fCntDown := by rw [← hc, if_pos hz]
      have hz' : ¬ dir.toNat = 0 := fun h => hz (BitVec.eq_of_toNat_eq h)
      crun [hr, hk, hm, hd', List.nil_append, replicate16, setCell_at, ← hf, hb]
      simp [World.did, World.say, calcMic]
      rw [hf, if_neg (show ¬ dir = 0#8 from hz)]
end

section
variable {ω : Type}

/-- Write a byte of an array. -/
@[csem] theorem set_bytes_cell (m : Mem ω) (fr : Option Nat) (o : String) (l : Bytes) (n : Int) (t : Ty) (v : Int) (h0 : 0 ≤ n) (h1 : n < l.length) :
    setCell m fr o n (.int t v) (some (l.map byteVal)) = .ok (.int .u8 (Ty.u8.conv v), putObj m fr o ((l.set n.toNat (BitVec.ofInt 8 (Ty.u8.conv v))).map byteVal)) := by
  have hn : n.toNat < l.length := by omega
  have hv : (l.map byteVal)[n.toNat]? = some (byteVal l[n.toNat]) := by
    rw [List.getElem?_map, List.getElem?_eq_getElem hn]
    rfl
  rw [setCell_of h0 hv]
  have ha : assign (byteVal l[n.toNat]) (.int t v) = .ok (.int .u8 (Ty.u8.conv v)) := rfl
  rw [ha, setTo_ok, List.map_set]
  have hb : byteVal (BitVec.ofInt 8 (Ty.u8.conv v)) = .int .u8 (Ty.u8.conv v) := by
    unfold byteVal
    rw [conv_u8, BitVec.toNat_ofInt]
    congr 1
    omega
  rw [hb]

theorem xor_bytes (a b : Byte) : Ty.u8.conv (ofBits .i32 (bits (a.toNat : Int) ^^^ bits (b.toNat : Int))) = ((a ^^^ b).toNat : Int) := by
  have h : (bits (a.toNat : Int) ^^^ bits (b.toNat : Int)) = (a ^^^ b).setWidth 32 := by
    rw [bits_byte, bits_byte]
    ext i hi
    simp
  rw [h]
  have := (a ^^^ b).isLt
  have h2 : ((a ^^^ b).setWidth 32).toInt = ((a ^^^ b).toNat : Int) := by
    rw [BitVec.toInt_eq_toNat_of_lt] <;> rw [BitVec.toNat_setWidth] <;> omega
  show Ty.u8.conv (if Ty.i32 = Ty.u32 then _ else _) = _
  rw [if_neg (by decide), h2, conv_u8_of _ (by omega) (by omega)]
end

section
variable (I : Input) (L k : Nat) (s : St) (x : Extra) (fs : List Objs) (w : World)

/-- The local variables of `encrypt_payload` in the outer loop. -/
def encFrame (ctx : Val) (fcnt : U32) (sp : Int) (i : Byte) (sb ab : List Val) (p : Int) (n : Int) (key dir : Val) : Objs :=
  [("ctx", [ctx]), ("pos", [.int .u8 15]), ("f_cnt", [.int .u32 fcnt.toNat]), ("src_pos", [.int .u8 sp]), ("a_block_i", [.int .u8 i.toNat]), ("s_block", sb), ("a_block", ab),
    ("buf", [fptr p]), ("size", [.int .u8 n]), ("key", [key]), ("dir", [dir])]

def xorLoop : Stmt := (.loop (.bin .lt (.load (.loc "i")) (.load (.loc "chunk_size"))) (.seq (.expr (.post .add (.loc "i")))
                                                                              (.expr (.post .add (.loc "src_pos"))))
                                                                            (.expr (.asg (.elem (.load (.loc "buf")) (.load (.loc "src_pos"))) (.bin .xor (.load (.elem (.load (.loc "buf")) (.load (.loc "src_pos")))) (.load (.elem (.addr (.loc "s_block")) (.load (.loc "i"))))))))

theorem xor_loop (C : Ctx World) (ctx : Val) (fcnt : U32) (i : Byte) (blk : Block) (ab : List Val) (p : Nat) (n : Int) (key dir : Val) (ch : Nat) (hch : ch ≤ 16) (post : Bytes) :
    ∀ (cl : Bytes) (N j sp : Nat) (pre : Bytes) (s : St), s.frame = pre ++ cl ++ post → pre.length = p + sp → j + cl.length = ch → sp + cl.length < 256 → cl.length < N →
    (iter (M.bind (eval C (.bin .lt (.load (.loc "i")) (.load (.loc "chunk_size")))) isTrue) (exec C (.seq (.expr (.post .add (.loc "i"))) (.expr (.post .add (.loc "src_pos")))))
      (exec C (.expr (.asg (.elem (.load (.loc "buf")) (.load (.loc "src_pos"))) (.bin .xor (.load (.elem (.load (.loc "buf")) (.load (.loc "src_pos")))) (.load (.elem (.addr (.loc "s_block")) (.load (.loc "i")))))))) N
      ⟨enc s x, (("i", [.int .u8 j]) :: ("chunk_size", [.int .u8 ch]) :: encFrame ctx fcnt sp i (blk.toList.map byteVal) ab p n key dir) :: fs, w⟩) =
    .ok (.next, ⟨enc { s with frame := pre ++ List.zipWith (· ^^^ ·) cl (blk.toList.drop j) ++ post } x,
      (("i", [.int .u8 ch]) :: ("chunk_size", [.int .u8 ch]) :: encFrame ctx fcnt (sp + cl.length : Nat) i (blk.toList.map byteVal) ab p n key dir) :: fs, w⟩) := by
  intro cl
  induction cl with
  | nil =>
    intro N j sp pre s hf hp hj hs hN
    obtain ⟨N, rfl⟩ : ∃ M, N = M + 1 := ⟨N - 1, by simp at hN; omega⟩
    simp only [List.length_nil, Nat.add_zero] at hj ⊢
    subst hj
    rw [iter_out (m' := ⟨enc s x, (("i", [.int .u8 j]) :: ("chunk_size", [.int .u8 j]) :: encFrame ctx fcnt sp i (blk.toList.map byteVal) ab p n key dir) :: fs, w⟩)]
    · simp only [List.zipWith_nil_left, List.append_nil]
      rw [List.append_nil] at hf
      rw [← hf]
    · unfold encFrame
      crun []
  | cons b cl ih =>
    intro N j sp pre s hf hp hj hs hN
    simp only [List.length_cons] at hj hs hN
    obtain ⟨N, rfl⟩ : ∃ M, N = M + 1 := ⟨N - 1, by omega⟩
    have hlen : s.frame.length = p + sp + (cl.length + 1) + post.length := by rw [hf]; simp; omega
    have hbl : blk.toList.length = 16 := by simp
    have hb : byteAt s.frame ((p : Int) + sp) = b := by
      unfold byteAt
      rw [hf, show ((p : Int) + sp).toNat = pre.length by omega]
      simp
    have hk : byteAt blk.toList (j : Int) = blk.toList[j]'(by omega) := by
      unfold byteAt
      rw [Int.toNat_natCast, List.getD_eq_getElem?_getD, List.getElem?_eq_getElem (by omega)]
      rfl
    have hset : s.frame.set ((p : Int) + sp).toNat (b ^^^ byteAt blk.toList (j : Int)) = (pre ++ [b ^^^ byteAt blk.toList (j : Int)]) ++ cl ++ post := by
      rw [hf, show ((p : Int) + sp).toNat = pre.length by omega]
      simp
    have ih' := ih N (j + 1) (sp + 1) (pre ++ [b ^^^ byteAt blk.toList (j : Int)]) { s with frame := (pre ++ [b ^^^ byteAt blk.toList (j : Int)]) ++ cl ++ post } rfl
      (by simp; omega) (by omega) (by omega) (by omega)
    rw [iter_next (o := .next) (m' := ⟨enc { s with frame := (pre ++ [b ^^^ byteAt blk.toList (j : Int)]) ++ cl ++ post } x, (("i", [.int .u8 j]) :: ("chunk_size", [.int .u8 ch]) :: encFrame ctx fcnt sp i (blk.toList.map byteVal) ab p n key dir) :: fs, w⟩)
      (m'' := ⟨enc { s with frame := (pre ++ [b ^^^ byteAt blk.toList (j : Int)]) ++ cl ++ post } x, (("i", [.int .u8 (j + 1 : Nat)]) :: ("chunk_size", [.int .u8 ch]) :: encFrame ctx fcnt (sp + 1 : Nat) i (blk.toList.map byteVal) ab p n key dir) :: fs, w⟩), ih']
    · simp only [List.length_cons]
      rw [show sp + 1 + cl.length = sp + (cl.length + 1) by omega, List.drop_eq_getElem_cons (by omega : j < blk.toList.length), List.zipWith_cons_cons, hk]
      simp
    · unfold encFrame
      crun []
    · unfold encFrame fptr
      crun [hb, hset, xor_bytes]
    · unfold encFrame
      crun [Int.natCast_add, Int.natCast_one]

/-- The block `Ai` in memory; the last cell may not have been written yet. -/
def aCells (dir : Byte) (addr fcnt : U32) (v : Val) : List Val :=
  [.int .u8 1, .int .u8 0, .int .u8 0, .int .u8 0, .int .u8 0, .int .u8 dir.toNat, .int .u8 (byteOf addr 0).toNat, .int .u8 (byteOf addr 1).toNat,
        .int .u8 (byteOf addr 2).toNat, .int .u8 (byteOf addr 3).toNat, .int .u8 (byteOf fcnt 0).toNat, .int .u8 (byteOf fcnt 1).toNat, .int .u8 (byteOf fcnt 2).toNat,
        .int .u8 (byteOf fcnt 3).toNat, .int .u8 0, v]

theorem conv_byte (b : Byte) : Ty.u8.conv (b.toNat : Int) = b.toNat := by
  have := b.isLt
  exact conv_u8_of _ (by omega) (by omega)

@[csem] theorem set_aCells (m : Mem World) (fr : Option Nat) (o : String) (dir : Byte) (addr fcnt : U32) (b : Byte) :
    setCell m fr o 15 (.int .u8 b.toNat) (some (aCells dir addr fcnt (.uninit (some .u8)))) = .ok (.int .u8 b.toNat, putObj m fr o (aCells dir addr fcnt (.int .u8 b.toNat))) := by
  rw [setCell_of (old := .uninit (some .u8)) (by decide) rfl, assign_uninit, conv_byte]
  rfl

@[csem] theorem set_aCells' (m : Mem World) (fr : Option Nat) (o : String) (dir : Byte) (addr fcnt : U32) (a b : Byte) :
    setCell m fr o 15 (.int .u8 b.toNat) (some (aCells dir addr fcnt (.int .u8 a.toNat))) = .ok (.int .u8 b.toNat, putObj m fr o (aCells dir addr fcnt (.int .u8 b.toNat))) := by
  rw [setCell_of (old := .int .u8 a.toNat) (by decide) rfl, assign_int, conv_byte]
  rfl

@[csem] theorem loads_aCells (g f : Objs) (o : String) (dir : Byte) (addr fcnt : U32) (b : Byte) :
    loadsOf g f fs w o 16 (some (aCells dir addr fcnt (.int .u8 b.toNat))) = .ok ((aBlock dir addr fcnt b).toList.map byteVal, ⟨g, f :: fs, w⟩) := by
  have h : aCells dir addr fcnt (.int .u8 b.toNat) = (aBlock dir addr fcnt b).toList.map byteVal := rfl
  rw [h, loadsOf_block]

/-- The outer loop. -/
def encBody : Stmt := (.seq (.expr (.asg (.elem (.addr (.loc "a_block")) (.load (.loc "pos"))) (.load (.loc "a_block_i"))))
                                                              (.seq (.expr (.call (.load (.fld (.elem (.load (.glob "uw_stack_hal")) (.lit .i32 0)) ".crypto_aes_encrypt")) (.cons (.load (.loc "ctx")) (.cons (.addr (.loc "s_block")) (.cons (.addr (.loc "a_block")) (.nil))))))
                                                                (.seq (.decl "chunk_size" ([.uninit (some .u8)]))
                                                                  (.seq (.expr (.asg (.loc "chunk_size") (.cond (.bin .ge (.load (.loc "size")) (.lit .i32 16)) (.lit .i32 16) (.load (.loc "size")))))
                                                                    (.seq (.decl "i" ([.uninit (some .u8)]))
                                                                      (.seq (.expr (.asg (.loc "i") (.lit .i32 0)))
                                                                        (.seq xorLoop
                                                                          (.expr (.asgOp .sub (.loc "size") (.load (.loc "chunk_size")))))))))))

/-- The frame at the start of a round. -/
def encStart (kb : Block) (addr fcnt : U32) (sp : Int) (i : Byte) (p : Int) (n : Int) (key : Val) (dir : Byte) : Option (Int × Block × Byte) → Objs
  | none => encFrame (.opaque (keyInts kb)) fcnt sp i (List.replicate 16 (.uninit (some .u8))) (aCells dir addr fcnt (.uninit (some .u8))) p n key (.int .u8 dir.toNat)
  | some (c, b, a) => ("i", [.int .u8 c]) :: ("chunk_size", [.int .u8 c]) :: encFrame (.opaque (keyInts kb)) fcnt sp i (b.toList.map byteVal) (aCells dir addr fcnt (.int .u8 a.toNat)) p n key (.int .u8 dir.toNat)

theorem encStart_none (kb : Block) (addr fcnt : U32) (sp : Int) (i : Byte) (p : Int) (n : Int) (key : Val) (dir : Byte) : encStart kb addr fcnt sp i p n key dir none =
    encFrame (.opaque (keyInts kb)) fcnt sp i (List.replicate 16 (.uninit (some .u8))) (aCells dir addr fcnt (.uninit (some .u8))) p n key (.int .u8 dir.toNat) := rfl

theorem enc_round (hL : 16 < L) (hr : s.region.isSome = true) (kb : Block) (addr fcnt : U32) (sp : Nat) (i : Byte) (p : Nat) (key : Val) (dir : Byte) (e : Option (Int × Block × Byte)) (pre l post : Bytes)
    (hf : s.frame = pre ++ l ++ post) (hp : pre.length = p + sp) (hs : sp + l.length < 256) :
    exec ⟨host I, call (host I) Src.prog L (k + 1), L⟩ encBody ⟨enc s x, encStart kb addr fcnt sp i p l.length key dir e :: fs, w⟩ =
    .ok (.next, ⟨enc { s with frame := (pre ++ List.zipWith (· ^^^ ·) (l.take 16) (I.env.aes kb (aBlock dir addr fcnt i)).toList) ++ l.drop 16 ++ post } x,
      encStart kb addr fcnt (sp + (l.take 16).length : Nat) i p (l.drop 16).length key dir (some ((l.take 16).length, I.env.aes kb (aBlock dir addr fcnt i), i)) :: fs, w.say (.aesEncrypt (aBlock dir addr fcnt i))⟩) := by
  have hx := xor_loop x fs (w.say (.aesEncrypt (aBlock dir addr fcnt i))) ⟨host I, call (host I) Src.prog L (k + 1), L⟩ (.opaque (keyInts kb)) fcnt i (I.env.aes kb (aBlock dir addr fcnt i))
    (aCells dir addr fcnt (.int .u8 i.toNat)) p l.length key (.int .u8 dir.toNat) (l.take 16).length (by simp; omega) (l.drop 16 ++ post) (l.take 16) L 0 sp pre s
    (by rw [hf]; simp only [List.append_assoc, ← List.append_assoc (l.take 16), List.take_append_drop]) hp (by omega) (by simp; omega) (by simp; omega)
  rw [show ((0 : Nat) : Int) = 0 from rfl, List.drop_zero] at hx
  have hx' := (exec_loop ⟨host I, call (host I) Src.prog L (k + 1), L⟩ _ _ _ _).trans hx
  change exec _ xorLoop _ = _ at hx'
  clear hx
  unfold encBody
  generalize xorLoop = X at *
  have htl : (l.take 16).length = min 16 l.length := by simp
  have hsub : ∀ c : Int, c = ((l.take 16).length : Int) → (l.length : Int) - c = ((l.drop 16).length : Int) := by
    intro c hc
    simp only [List.length_drop]
    omega
  by_cases h16 : 16 ≤ l.length
  · have ht : ((l.take 16).length : Int) = 16 := by omega
    have hsub := hsub 16 ht.symm
    simp only [Int.natCast_add, ht, List.append_assoc] at hx' ⊢
    cases e with
    | none =>
      unfold encStart encFrame at *
      crun [hr, hx', hsub]
    | some e =>
      obtain ⟨c, b, a⟩ := e
      unfold encStart encFrame at *
      crun [hr, hx', hsub]
  · have ht : ((l.take 16).length : Int) = l.length := by omega
    have hsub := hsub l.length ht.symm
    simp only [Int.natCast_add, ht, List.append_assoc] at hx' ⊢
    cases e with
    | none =>
      unfold encStart encFrame at *
      crun [hr, hx', hsub]
    | some e =>
      obtain ⟨c, b, a⟩ := e
      unfold encStart encFrame at *
      crun [hr, hx', hsub]

theorem byte_succ (i : Byte) : Ty.u8.conv ((i.toNat : Int) + 1) = ((i + 1).toNat : Int) := by
  rw [conv_u8, BitVec.toNat_add]
  show ((i.toNat : Int) + 1) % 256 = (((i.toNat + 1) % 256 : Nat) : Int)
  omega

theorem enc_loop (hL : 16 < L) (kb : Block) (addr fcnt : U32) (p : Nat) (key : Val) (dir : Byte) (post : Bytes) :
    ∀ (m N : Nat) (l : Bytes) (i : Byte) (sp : Nat) (e : Option (Int × Block × Byte)) (pre : Bytes) (s : St) (w : World), l.length ≤ m → l.length ≤ 16 * N → s.region.isSome = true →
    s.frame = pre ++ l ++ post → pre.length = p + sp → sp + l.length < 256 →
    ∃ e' i' sp', iter (M.bind (eval ⟨host I, call (host I) Src.prog L (k + 1), L⟩ (.bin .gt (.load (.loc "size")) (.lit .i32 0))) isTrue)
      (exec ⟨host I, call (host I) Src.prog L (k + 1), L⟩ (.expr (.post .add (.loc "a_block_i")))) (exec ⟨host I, call (host I) Src.prog L (k + 1), L⟩ encBody) (N + 1)
      ⟨enc s x, encStart kb addr fcnt sp i p l.length key dir e :: fs, w⟩ =
    .ok (.next, ⟨enc { s with frame := pre ++ (encLoop (I.env.aes kb) dir addr fcnt m i l).1 ++ post } x, encStart kb addr fcnt sp' i' p 0 key dir e' :: fs,
      w.did w.cmac (encLoop (I.env.aes kb) dir addr fcnt m i l).2⟩) := by
  intro m
  induction m with
  | zero =>
    intro N l i sp e pre s w hm hN hr hf hp hs
    obtain rfl : l = [] := List.length_eq_zero_iff.mp (by omega)
    refine ⟨e, i, sp, ?_⟩
    rw [iter_out (m' := ⟨enc s x, encStart kb addr fcnt sp i p 0 key dir e :: fs, w⟩)]
    · simp only [encLoop, World.did, List.append_nil] at hf ⊢
      rw [← hf]
    · rcases e with _ | ⟨c, b, a⟩ <;> simp only [encStart, encFrame, List.length_nil, Int.natCast_zero] <;> crun []
  | succ m ih =>
    intro N l i sp e pre s w hm hN hr hf hp hs
    cases l with
    | nil =>
      refine ⟨e, i, sp, ?_⟩
      rw [iter_out (m' := ⟨enc s x, encStart kb addr fcnt sp i p 0 key dir e :: fs, w⟩)]
      · simp only [encLoop, World.did, List.append_nil] at hf ⊢
        rw [← hf]
      · rcases e with _ | ⟨c, b, a⟩ <;> simp only [encStart, encFrame, List.length_nil, Int.natCast_zero] <;> crun []
    | cons b0 l0 =>
      have hround := enc_round I L k s x fs w hL hr kb addr fcnt sp i p key dir e pre (b0 :: l0) post hf hp hs
      have hE : encLoop (I.env.aes kb) dir addr fcnt (m + 1) i (b0 :: l0) =
        (List.zipWith (· ^^^ ·) ((b0 :: l0).take 16) (I.env.aes kb (aBlock dir addr fcnt i)).toList ++ (encLoop (I.env.aes kb) dir addr fcnt m (i + 1) ((b0 :: l0).drop 16)).1,
          .aesEncrypt (aBlock dir addr fcnt i) :: (encLoop (I.env.aes kb) dir addr fcnt m (i + 1) ((b0 :: l0).drop 16)).2) := rfl
      rw [hE]
      have hpos : 0 < (b0 :: l0).length := by simp
      generalize b0 :: l0 = l at *
      obtain ⟨N, rfl⟩ : ∃ M, N = M + 1 := ⟨N - 1, by omega⟩
      have hlt : (l.take 16).length = min 16 l.length := by simp
      have hld : (l.drop 16).length = l.length - 16 := by simp
      obtain ⟨e', i', sp', ih⟩ := ih N (l.drop 16) (i + 1) (sp + (l.take 16).length) (some ((l.take 16).length, I.env.aes kb (aBlock dir addr fcnt i), i))
        (pre ++ List.zipWith (· ^^^ ·) (l.take 16) (I.env.aes kb (aBlock dir addr fcnt i)).toList)
        { s with frame := (pre ++ List.zipWith (· ^^^ ·) (l.take 16) (I.env.aes kb (aBlock dir addr fcnt i)).toList) ++ l.drop 16 ++ post } (w.say (.aesEncrypt (aBlock dir addr fcnt i)))
        (by omega) (by omega) hr rfl (by simp; omega) (by omega)
      refine ⟨e', i', sp', ?_⟩
      rw [iter_next (o := .next) _ hround (m'' := ⟨enc { s with frame := (pre ++ List.zipWith (· ^^^ ·) (l.take 16) (I.env.aes kb (aBlock dir addr fcnt i)).toList) ++ l.drop 16 ++ post } x,
        encStart kb addr fcnt (sp + (l.take 16).length : Nat) (i + 1) p (l.drop 16).length key dir (some ((l.take 16).length, I.env.aes kb (aBlock dir addr fcnt i), i)) :: fs,
        w.say (.aesEncrypt (aBlock dir addr fcnt i))⟩), ih]
      · simp [World.did, World.say]
      · simp only [encStart, encFrame]
        crun [byte_succ]
      · rcases e with _ | ⟨c, b, a⟩ <;> simp only [encStart, encFrame] <;> crun []

theorem run_encrypt_payload (hL : 16 < L) (hr : s.region.isSome = true) (p : Nat) (pre l post : Bytes) (hf : s.frame = pre ++ l ++ post) (hp : pre.length = p) (hl : l.length < 256)
    (key : Ref) (kb : Block) (dir : Byte) (t t' : Ty) (hk : ∀ f w, loads key 16 (⟨enc s x, f :: fs, w⟩ : Mem World) = .ok (kb.toList.map byteVal, ⟨enc s x, f :: fs, w⟩)) :
    call (host I) Src.prog L (k + 2) "encrypt_payload" [fptr p, .int t l.length, .ptr key, .int t' dir.toNat] ⟨enc s x, fs, w⟩ =
    .ok (.null, ⟨enc { s with frame := pre ++ (encryptPayload I.env s.session l kb dir).1 ++ post } x, fs, w.did w.cmac (encryptPayload I.env s.session l kb dir).2⟩) := by
  rw [call_fun (host I) find_encrypt_payload]
  unfold Src.encrypt_payload
  have hdir := dir.isLt
  generalize hc : (if dir ≠ 0 then s.session.fCntDown else s.session.fCntUp) = fcnt at *
  have hE : encryptPayload I.env s.session l kb dir = ((encLoop (I.env.aes kb) dir s.session.devAddr fcnt l.length 1 l).1,
    .aesNew kb :: (encLoop (I.env.aes kb) dir s.session.devAddr fcnt l.length 1 l).2 ++ [.aesDel]) := by rw [← hc]; rfl
  obtain ⟨L, rfl⟩ : ∃ M, L = M + 1 := ⟨L - 1, by omega⟩
  obtain ⟨e', i', sp', hx⟩ := enc_loop I (L + 1) k x fs hL kb s.session.devAddr fcnt p (.ptr key) dir post l.length L l 1 0 none pre s (w.say (.aesNew kb)) (Nat.le_refl _) (by omega) hr hf (by omega) (by omega)
  have hx' := (exec_loop ⟨host I, call (host I) Src.prog (L + 1) (k + 1), L + 1⟩ _ _ _ _).trans hx
  clear hx
  rw [hE]
  have hb : [Val.int .u8 1, .int .u8 0, .int .u8 0, .int .u8 0, .int .u8 0, .int .u8 dir.toNat, .int .u8 (byteOf s.session.devAddr 0).toNat, .int .u8 (byteOf s.session.devAddr 1).toNat,
        .int .u8 (byteOf s.session.devAddr 2).toNat, .int .u8 (byteOf s.session.devAddr 3).toNat, .int .u8 (byteOf fcnt 0).toNat, .int .u8 (byteOf fcnt 1).toNat, .int .u8 (byteOf fcnt 2).toNat,
        .int .u8 (byteOf fcnt 3).toNat, .int .u8 0, .uninit (some .u8)] = aCells dir s.session.devAddr fcnt (.uninit (some .u8)) := rfl
  have h1 : (((1 : Byte).toNat : Nat) : Int) = 1 := rfl
  unfold encBody xorLoop at hx'
  simp only [encStart_none, encFrame, replicate16, fptr, Int.natCast_zero, h1] at hx'
  have hrest : ∀ g w', exec ⟨host I, call (host I) Src.prog (L + 1) (k + 1), L + 1⟩
      (.expr (.call (.load (.fld (.elem (.load (.glob "uw_stack_hal")) (.lit .i32 0)) ".crypto_aes_delete_context")) (.cons (.load (.loc "ctx")) (.nil))))
      ⟨enc { s with frame := g } x, encStart kb s.session.devAddr fcnt sp' i' p 0 (.ptr key) dir e' :: fs, w'⟩ =
      .ok (.next, ⟨enc { s with frame := g } x, encStart kb s.session.devAddr fcnt sp' i' p 0 (.ptr key) dir e' :: fs, w'.say .aesDel⟩) := by
    intro g w'
    rcases e' with _ | ⟨c, b, a⟩ <;> simp only [encStart, encFrame] <;> crun [hr]
  by_cases hz : dir = 0
  · have hfc : fcnt = s.session.fCntUp := by rw [← hc, hz]; rfl
    have hz' : dir.toNat = 0 := by rw [hz]; rfl
    unfold fptr
    crun [hr, hk, replicate16, setCell_at, ← hfc, hb]
    rw [hx', andThen_ok]
    simp only [hrest]
    crun []
    simp [World.did, World.say]
  · have hfc : fcnt = s.session.fCntDown := by rw [← hc, if_pos hz]
    have hz' : ¬ dir.toNat = 0 := fun h => hz (BitVec.eq_of_toNat_eq h)
    unfold fptr
    crun [hr, hk, replicate16, setCell_at, ← hfc, hb]
    rw [hx', andThen_ok]
    simp only [hrest]
    crun []
    simp [World.did, World.say]
end
end Uwan.C
