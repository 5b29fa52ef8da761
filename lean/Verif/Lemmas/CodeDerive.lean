import Verif.Lemmas.CodeCrypto

/-! # Session keys, and the setters of the keys -/

namespace Uwan.C

section
variable {ω : Type}

theorem iter_unroll (cond : M ω Bool) (step body : M ω Out) (n : Nat) (m : Mem ω) : iter cond step body (n + 1) m = andThen (cond m) fun b => branch b (M.bind body fun
      | .next => M.bind step fun _ => iter cond step body n
      | .brk => M.pure .next
      | .ret v => M.pure (.ret v)) (M.pure .next) := rfl

theorem getObj_top2 (g f' f : Objs) (fs : List Objs) (w : ω) (o : String) : getObj (⟨g, f' :: f :: fs, w⟩ : Mem ω) (some (fs.length + 1)) o = f'.get o := getObj_top g f' (f :: fs) w o

theorem putObj_top2 (g f' f : Objs) (fs : List Objs) (w : ω) (o : String) (v : List Val) :
    putObj (⟨g, f' :: f :: fs, w⟩ : Mem ω) (some (fs.length + 1)) o v = ⟨g, f'.put o v :: f :: fs, w⟩ := putObj_top g f' (f :: fs) w o v

theorem putObj_below (g f' f : Objs) (fs : List Objs) (w : ω) (o : String) (v : List Val) :
    putObj (⟨g, f' :: f :: fs, w⟩ : Mem ω) (some fs.length) o v = ⟨g, f' :: f.put o v :: fs, w⟩ := by
  simp only [putObj]
  have : (f' :: f :: fs).length - 1 - fs.length = 1 := by simp
  rw [this]
  rfl

theorem loads_block_glob {o : String} {b : Block} (g : Objs) (fs : List Objs) (w : ω) (h : g.get o = some (b.toList.map byteVal)) : loads ⟨none, o, 0⟩ 16 (⟨g, fs, w⟩ : Mem ω) = .ok (b.toList.map byteVal, ⟨g, fs, w⟩) := by
  have := loads_bytes (m := ⟨g, fs, w⟩) (fr := none) (o := o) (l := b.toList) (off := 0) (n := 16) h (by simp)
  rw [List.drop_zero, List.take_of_length_le (by simp)] at this
  exact this

variable (s : St) (x : Extra) (fs : List Objs) (w : ω)

@[csem] theorem loads_app_key : loads ⟨none, "uw_app_key", 0⟩ 16 (⟨enc s x, fs, w⟩ : Mem ω) = .ok (s.appKey.toList.map byteVal, ⟨enc s x, fs, w⟩) := loads_block_glob _ fs w rfl
@[csem] theorem loads_nwk_s_key : loads ⟨none, "uw_session.nwk_s_key", 0⟩ 16 (⟨enc s x, fs, w⟩ : Mem ω) = .ok (s.session.nwkSKey.toList.map byteVal, ⟨enc s x, fs, w⟩) := loads_block_glob _ fs w rfl
@[csem] theorem loads_app_s_key : loads ⟨none, "uw_session.app_s_key", 0⟩ 16 (⟨enc s x, fs, w⟩ : Mem ω) = .ok (s.session.appSKey.toList.map byteVal, ⟨enc s x, fs, w⟩) := loads_block_glob _ fs w rfl
end

section
variable (I : Input) (L k : Nat) (s : St) (x : Extra) (f : Objs) (fs : List Objs) (w : World)

theorem run_derive_session_key (hL : 16 < L) (hr : s.region.isSome = true) (o : String) (ho : f.get o = some (List.replicate 16 (.uninit (some .u8)))) (kt : Byte) (an ni : U32) (t t' t'' : Ty) :
    call (host I) Src.prog L (k + 2) "derive_session_key" [.ptr ⟨some fs.length, o, 0⟩, .int t kt.toNat, .int t' an.toNat, .int t'' ni.toNat] ⟨enc s x, f :: fs, w⟩ =
    .ok (.null, ⟨enc s x, f.put o ((deriveSessionKey I.env s.appKey kt an ni s.devNonce).1.toList.map byteVal) :: fs, w.did w.cmac (deriveSessionKey I.env s.appKey kt an ni s.devNonce).2⟩) := by
  rw [call_fun (host I) find_derive_session_key]
  unfold Src.derive_session_key
  have h1 := kt.isLt
  have h2 := an.isLt
  have h3 := ni.isLt
  have hget : ∀ v, (f.put o v).get o = some v := fun v => Objs.get_put v ho
  obtain ⟨K, hK⟩ : ∃ K : Block, K = #v[kt, byteOf an 0, byteOf an 1, byteOf an 2, byteOf ni 0, byteOf ni 1, byteOf ni 2, byteOf s.devNonce 0, byteOf s.devNonce 1, 0, 0, 0, 0, 0, 0, 0] := ⟨_, rfl⟩
  have hb : [Val.int .u8 kt.toNat, .int .u8 (byteOf an 0).toNat, .int .u8 (byteOf an 1).toNat, .int .u8 (byteOf an 2).toNat, .int .u8 (byteOf ni 0).toNat, .int .u8 (byteOf ni 1).toNat, .int .u8 (byteOf ni 2).toNat,
    .int .u8 (byteOf s.devNonce 0).toNat, .int .u8 (byteOf s.devNonce 1).toNat, .int .u8 0, .int .u8 0, .int .u8 0, .int .u8 0, .int .u8 0, .int .u8 0, .int .u8 0] = K.toList.map byteVal := by rw [hK]; rfl
  have hD : deriveSessionKey I.env s.appKey kt an ni s.devNonce = (I.env.aes s.appKey K, [.aesNew s.appKey, .aesEncrypt K, .aesDel]) := by rw [hK]; rfl
  rw [hD]
  have hload : ∀ f' w, loads ⟨some fs.length, o, 0⟩ 16 (⟨enc s x, f' :: f.put o (K.toList.map byteVal) :: fs, w⟩ : Mem World) = .ok (K.toList.map byteVal, ⟨enc s x, f' :: f.put o (K.toList.map byteVal) :: fs, w⟩) := by
    intro f' w
    have := loads_bytes (m := ⟨enc s x, f' :: f.put o (K.toList.map byteVal) :: fs, w⟩) (fr := some fs.length) (o := o) (l := K.toList) (off := 0) (n := 16) (by rw [getObj_below]; exact hget _) (by simp)
    rw [List.drop_zero, List.take_of_length_le (by simp)] at this
    exact this
  have hstore : ∀ (b : Block) f' w, stores ⟨some fs.length, o, 0⟩ (b.toList.map byteVal) (⟨enc s x, f' :: f.put o (K.toList.map byteVal) :: fs, w⟩ : Mem World) = .ok ((), ⟨enc s x, f' :: f.put o (b.toList.map byteVal) :: fs, w⟩) := by
    intro b f' w
    have := stores_cells (some fs.length) o b.toList (⟨enc s x, f' :: f.put o (K.toList.map byteVal) :: fs, w⟩ : Mem World) (K.toList.map byteVal) (by rw [getObj_below]; exact hget _) (bytes_cells _) 0 (by simp)
    rw [putObj_below, Objs.put_put] at this
    rw [List.take_zero, List.nil_append, List.drop_of_length_le (by simp), List.append_nil] at this
    exact this
  obtain ⟨L, rfl⟩ : ∃ M, L = M + 10 := ⟨L - 10, by omega⟩
  crun [hr, getObj_top2, putObj_top2, getObj_below, putObj_below, ho, hget, Objs.put_put, replicate16, setCell_at, exec_loop, iter_unroll, hb, hload, hstore]
  simp [World.did, World.say]

end
end Uwan.C
