import Verif.Lemmas.CodeTail

/-! # handle_data_msg: the MIC and the payload -/

namespace Uwan.C

section
variable (I : Input) (L k : Nat) (s : St) (x : Extra) (fs : List Objs) (w : World) (e mt snr rssi : Val) (port n : Int) (F : Objs)

theorem data_mic (pld : Val) (size : Nat) (hF : DataPld fs F noMic pld size) (hr : s.region.isSome = true) (fr buf : Bytes) (hf : s.frame = over fr buf) (hl : fr.length = 255) (hb : buf.length ≤ 255) (h4 : 4 ≤ buf.length) :
    ∃ q, exec ⟨host I, call (host I) Src.prog L (k + 6), L⟩ ((((dataLate.after 1).after 1).after 6).upTo 2)
      ⟨enc s x, F :: pktVars e mt snr rssi port buf.length frameStart :: fs, w⟩ =
    .ok (if buf.drop (buf.length - 4) = (calcMic I.env s.session (buf.take (buf.length - 4)) s.session.nwkSKey 1 true).1 then .next else .ret (some (.int .i32 9)),
      ⟨enc s x, F.put "mic" ((calcMic I.env s.session (buf.take (buf.length - 4)) s.session.nwkSKey 1 true).1.map byteVal) :: pktVars e mt snr rssi port buf.length frameStart :: fs,
        w.did q (calcMic I.env s.session (buf.take (buf.length - 4)) s.session.nwkSKey 1 true).2⟩) := by
  have hml := mic_length I.env s.session (buf.take (buf.length - 4)) s.session.nwkSKey 1 true
  obtain ⟨q, hq⟩ := run_calc_mic I L (k + 4) s x (F :: pktVars e mt snr rssi port buf.length frameStart :: fs) w hr (enc s x)
    (F.put "mic" ((calcMic I.env s.session (buf.take (buf.length - 4)) s.session.nwkSKey 1 true).1.map byteVal) :: pktVars e mt snr rssi port buf.length frameStart :: fs)
    ⟨some (fs.length + 1), "mic", 0⟩ ⟨none, "uw_frame", 0⟩ ⟨none, "uw_session.nwk_s_key", 0⟩ (buf.take (buf.length - 4)) (by rw [List.length_take]; omega) s.session.nwkSKey 1 true .u32 .i32
    (fun f w => loads_nwk_s_key s x _ w) (fun f w => by
      have := over_front s x (f :: F :: pktVars e mt snr rssi port buf.length frameStart :: fs) w fr buf hf (by omega) (buf.length - 4) (by omega)
      rw [List.length_take, Nat.min_eq_left (by omega)]
      exact this)
    (fun f w => stores_four (pktVars e mt snr rssi port buf.length frameStart :: fs) w _ f _ "mic" _ hml hF.mic)
  refine ⟨q, ?_⟩
  rw [← mic_flag, List.length_take, Nat.min_eq_left (by omega)] at hq
  generalize calcMic I.env s.session (buf.take (buf.length - 4)) s.session.nwkSKey 1 true = mic at hml hq ⊢
  have hbk := fun fs (w : World) => over_back s x fs w fr buf hf (by omega) (buf.length - 4) (by omega)
  have hm : ∀ g f fs w, f.get "mic" = some (mic.1.map byteVal) → loads ⟨some fs.length, "mic", 0⟩ 4 (⟨g, f :: fs, w⟩ : Mem World) = .ok (mic.1.map byteVal, ⟨g, f :: fs, w⟩) := by
    intro g f fs w h
    have := loads_bytes (m := (⟨g, f :: fs, w⟩ : Mem World)) (fr := some fs.length) (o := "mic") (l := mic.1) (off := 0) (n := 4) (by rw [getObj_top]; exact h) (by omega)
    rw [List.drop_zero, List.take_of_length_le (by omega)] at this
    exact this
  have hm2 : ∀ w, loads ⟨some (fs.length + 1), "mic", 0⟩ 4 (⟨enc s x, F.put "mic" (mic.1.map byteVal) :: pktVars e mt snr rssi port buf.length frameStart :: fs, w⟩ : Mem World) = _ :=
    fun w => hm (enc s x) (F.put "mic" (mic.1.map byteVal)) (pktVars e mt snr rssi port buf.length frameStart :: fs) w (Objs.get_put _ hF.mic)
  generalize hbd : buf.drop (buf.length - 4) = bd at hbk ⊢
  have hiff : (bd.map byteVal = mic.1.map byteVal) = (bd = mic.1) := by
    apply propext
    exact ⟨byteVal_inj _ _, fun h => by rw [h]⟩
  obtain ⟨j, hj⟩ : ∃ j, j = buf.length - 4 := ⟨_, rfl⟩
  have hj' : (buf.length : Int) - 4 = (j : Int) := by omega
  have hlt : buf.length < 256 := by omega
  rw [← hj] at hq hbk
  simp only [show ((1 : Byte).toNat : Int) = 1 from rfl, if_true] at hq
  have h1 := hF.buf
  have h2 := hF.pkt
  have h1' := fun v => (Objs.get_put_other F "mic" "buf" v (by decide)).trans hF.buf
  have h2' := fun v => (Objs.get_put_other F "mic" "pkt" v (by decide)).trans hF.pkt
  unfold dataLate Src.handle_data_msg
  by_cases hz : bd = mic.1
  · crun [Stmt.upTo, Stmt.after, getObj_top2, putObj_top2, getObj_below, hr, hj', hq, ptr_sub, hbk, hm2, hiff, hz, h1, h2, h1', h2']
  · crun [Stmt.upTo, Stmt.after, getObj_top2, putObj_top2, getObj_below, hr, hj', hq, ptr_sub, hbk, hm2, hiff, hz, h1, h2, h1', h2']

theorem data_put (mic mic' : List Val) (pld : Val) (size : Nat) (hF : DataPld fs F mic pld size) : DataPld fs (F.put "mic" mic') mic' pld size where
  buf := (Objs.get_put_other F "mic" "buf" _ (by decide)).trans hF.buf
  pkt := (Objs.get_put_other F "mic" "pkt" _ (by decide)).trans hF.pkt
  mic := Objs.get_put _ hF.mic
  pld := (Objs.get_put_other F "mic" "pld" _ (by decide)).trans hF.pld
  size := (Objs.get_put_other F "mic" "pld_size" _ (by decide)).trans hF.size
  key := (Objs.get_put_other F "mic" "key" _ (by decide)).trans hF.key

theorem data_plain (mic : List Val) (pld : Val) (hp : pld = .null ∨ ∃ r, pld = .ptr r) (hF : DataPld fs F mic pld 0) :
    ∃ F', exec ⟨host I, call (host I) Src.prog L (k + 6), L⟩ ((((dataLate.after 1).after 1).after 6).after 2)
      ⟨enc s x, F :: pktVars e mt snr rssi port n frameStart :: fs, w⟩ =
    .ok (.ret (some (.int .i32 0)), ⟨enc (adrHandleDownlink s) x, F' :: pktVars e mt snr rssi port 0 pld :: fs, w⟩) := by
  have h2 := hF.pkt
  have h3 := hF.pld
  have h4 : F.get "pld_size" = some [.int .u8 0] := hF.size
  refine ⟨F, ?_⟩
  unfold dataLate Src.handle_data_msg pktVars
  rcases hp with rfl | ⟨r, rfl⟩
  · crun [Stmt.upTo, Stmt.after, getObj_top2, putObj_top2, getObj_below, putObj_below, h2, h3, h4, run_adr_handle_downlink]
  · crun [Stmt.upTo, Stmt.after, getObj_top2, putObj_top2, getObj_below, putObj_below, h2, h3, h4, run_adr_handle_downlink]

theorem data_crypt (hL : 16 < L) (hr : s.region.isSome = true) (mic : List Val) (p : Nat) (pre l post : Bytes) (hf : s.frame = pre ++ l ++ post) (hp : pre.length = p) (h0 : 0 < l.length) (hl : l.length < 256)
    (po : Byte) (hF : DataPld fs F mic (fptr p) l.length) (key : Block) (hkey : key = if po = 0 then s.session.nwkSKey else s.session.appSKey) :
    ∃ F', exec ⟨host I, call (host I) Src.prog L (k + 6), L⟩ ((((dataLate.after 1).after 1).after 6).after 2)
      ⟨enc s x, F :: pktVars e mt snr rssi po.toNat n frameStart :: fs, w⟩ =
    .ok (.ret (some (.int .i32 0)), ⟨enc (adrHandleDownlink { s with frame := pre ++ (encryptPayload I.env s.session l key 1).1 ++ post }) x, F' :: pktVars e mt snr rssi po.toNat l.length (fptr p) :: fs,
      w.did w.cmac (encryptPayload I.env s.session l key 1).2⟩) := by
  have h2 := hF.pkt
  have h3 := hF.pld
  have h4 := hF.size
  have h5 := hF.key
  have hlt := po.isLt
  unfold fptr at h3
  have hl0 : 0 < (l.length : Int) := by omega
  by_cases hz : po = 0
  · rw [if_pos hz] at hkey
    subst hkey
    refine ⟨("key", [.ptr ⟨none, "uw_session.nwk_s_key", 0⟩]) :: F, ?_⟩
    have hq := run_encrypt_payload I L (k + 4) s x ((("key", [.ptr ⟨none, "uw_session.nwk_s_key", 0⟩]) :: F) :: pktVars e mt snr rssi po.toNat n frameStart :: fs) w hL hr p pre l post hf hp hl
      ⟨none, "uw_session.nwk_s_key", 0⟩ s.session.nwkSKey 1 .u8 .i32 (fun f w => loads_nwk_s_key s x _ w)
    simp only [show ((1 : Byte).toNat : Int) = 1 from rfl] at hq
    have hz' : (po.toNat : Int) = 0 := by rw [hz]; rfl
    unfold fptr at *
    unfold dataLate Src.handle_data_msg
    unfold pktVars at *
    rw [hz'] at hq ⊢
    crun [Stmt.upTo, Stmt.after, getObj_top2, putObj_top2, getObj_below, putObj_below, h2, h3, h4, h5, hl0, hq, run_adr_handle_downlink]

  · rw [if_neg hz] at hkey
    subst hkey
    refine ⟨("key", [.ptr ⟨none, "uw_session.app_s_key", 0⟩]) :: F, ?_⟩
    have hq := run_encrypt_payload I L (k + 4) s x ((("key", [.ptr ⟨none, "uw_session.app_s_key", 0⟩]) :: F) :: pktVars e mt snr rssi po.toNat n frameStart :: fs) w hL hr p pre l post hf hp hl
      ⟨none, "uw_session.app_s_key", 0⟩ s.session.appSKey 1 .u8 .i32 (fun f w => loads_app_s_key s x _ w)
    simp only [show ((1 : Byte).toNat : Int) = 1 from rfl] at hq
    have hz' : ¬ (po.toNat : Int) = 0 := by
      intro h; apply hz; apply BitVec.eq_of_toNat_eq; show po.toNat = 0; omega
    unfold fptr at *
    unfold dataLate Src.handle_data_msg
    unfold pktVars at *
    crun [Stmt.upTo, Stmt.after, getObj_top2, putObj_top2, getObj_below, putObj_below, h2, h3, h4, h5, hl0, hq, hz', run_adr_handle_downlink]


end
end Uwan.C
