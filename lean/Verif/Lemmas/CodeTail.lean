import Verif.Lemmas.CodeCount

/-! # handle_data_msg: the MAC commands, the MIC and the payload -/

namespace Uwan.C

theorem Objs.get_put_other (g : Objs) (x y : String) (v : List Val) (h : x ≠ y) : (g.put x v).get y = g.get y := by
  induction g with
  | nil => rfl
  | cons a g ih =>
    obtain ⟨z, u⟩ := a
    simp only [Objs.put]
    by_cases hz : z = x
    · rw [if_pos hz]
      simp only [Objs.get]
      rw [if_neg (by rw [hz]; exact h), if_neg (by rw [hz]; exact h)]
    · rw [if_neg hz]
      simp only [Objs.get]
      rw [ih]

/-- What the rest of `handle_data_msg` needs of the local variables. -/
structure DataTop (fs : List Objs) (F : Objs) (o fo : Int) (mic : List Val) : Prop where
  buf : F.get "buf" = some [frameStart]
  pkt : F.get "pkt" = some [.ptr ⟨some fs.length, "pkt", 0⟩]
  mic : F.get "mic" = some mic
  offset : F.get "offset" = some [.int .u8 o]
  fopts : F.get "f_opts_len" = some [.int .u8 fo]
  min : F.get "msg_min_size" = some [.int .u8 12]
  pld : F.get "pld" = none
  size : F.get "pld_size" = none
  key : F.get "key" = none

theorem data_top (fs : List Objs) (pre : Objs) (hp : CountPre pre) (t h a : Val) (fo : Int) (c ctrl : Val) :
    DataTop fs (pre ++ ("mtype", [t]) :: dataVars fs 8 noMic (.int .u8 fo) c ctrl a h) 8 fo noMic := by
  rcases hp with rfl | ⟨_, _, rfl⟩ | ⟨_, _, _, rfl⟩ <;> constructor <;> rfl

/-- `handle_data_msg` after the frame counter update. -/
abbrev dataLate : Stmt := ((((((Src.handle_data_msg.body.after 13).after 2).after 4).after 5).after 3).after 2).after 1

section
variable (I : Input) (L k : Nat) (s : St) (x : Extra) (fs : List Objs) (w : World) (e mt snr rssi : Val) (port n : Int) (F : Objs)

theorem data_snr (sn : Byte) (n' : Int) (hF : DataTop fs F 8 n' noMic) : exec ⟨host I, call (host I) Src.prog L (k + 6), L⟩ (dataLate.upTo 1)
      ⟨enc s x, F :: pktVars e mt (i8Val sn) rssi port n frameStart :: fs, w⟩ =
    .ok (.next, ⟨enc { s with snr := sn } x, F :: pktVars e mt (i8Val sn) rssi port n frameStart :: fs, w⟩) := by
  have h1 := hF.pkt
  have h0 : -128 ≤ sn.toInt := by have := BitVec.le_toInt sn; simpa using this
  have h2 : sn.toInt < 128 := by have := @BitVec.toInt_lt 8 sn; simpa using this
  have hb : BitVec.ofInt 8 sn.toInt = sn := BitVec.ofInt_toInt
  unfold dataLate Src.handle_data_msg pktVars i8Val
  crun [Stmt.upTo, Stmt.after, getObj_top2, putObj_top2, getObj_below, h1, hb]


theorem data_cmds (s' : St) (x' : Extra) (w' : World) (fo : Nat) (hfo : fo < 16) (hF : DataTop fs F 8 fo noMic)
    (h0 : fo = 0 → s' = s ∧ x' = x ∧ w' = w)
    (hc : 0 < fo → call (host I) Src.prog L (k + 6) "mac_handle_commands" [fptr 8, .int .u8 fo] ⟨enc s x, F :: pktVars e mt snr rssi port n frameStart :: fs, w⟩ =
      .ok (.null, ⟨enc s' x', F :: pktVars e mt snr rssi port n frameStart :: fs, w'⟩)) :
    exec ⟨host I, call (host I) Src.prog L (k + 6), L⟩ ((dataLate.after 1).upTo 1)
      ⟨enc s x, F :: pktVars e mt snr rssi port n frameStart :: fs, w⟩ =
    .ok (.next, ⟨enc s' x', F :: pktVars e mt snr rssi port n frameStart :: fs, w'⟩) := by
  have h1 := hF.fopts
  have h2 := hF.buf
  have h3 := hF.offset
  unfold fptr at hc
  unfold dataLate Src.handle_data_msg
  unfold pktVars at *
  by_cases hz : fo = 0
  · obtain ⟨rfl, rfl, rfl⟩ := h0 hz
    have hz' : (fo : Int) = 0 := by omega
    rw [hz'] at h1
    crun [Stmt.upTo, Stmt.after, getObj_top2, putObj_top2, getObj_below, h1]
    done
  · have hc' := hc (by omega)
    have hz' : 0 < (fo : Int) := by omega
    crun [Stmt.upTo, Stmt.after, getObj_top2, putObj_top2, getObj_below, h1, h2, h3, hz', hc']
    done

/-- The local variables after the payload has been found. -/
structure DataPld (fs : List Objs) (F : Objs) (mic : List Val) (pld : Val) (size : Nat) : Prop where
  buf : F.get "buf" = some [frameStart]
  pkt : F.get "pkt" = some [.ptr ⟨some fs.length, "pkt", 0⟩]
  mic : F.get "mic" = some mic
  pld : F.get "pld" = some [pld]
  size : F.get "pld_size" = some [.int .u8 size]
  key : F.get "key" = none

theorem data_no_payload (fo : Nat) (hfo : fo < 16) (hF : DataTop fs F 8 fo noMic) (hn : n = 12 + fo) :
    ∃ F', DataPld fs F' noMic .null 0 ∧ exec ⟨host I, call (host I) Src.prog L (k + 6), L⟩ (((dataLate.after 1).after 1).upTo 6)
      ⟨enc s x, F :: pktVars e mt snr rssi port n frameStart :: fs, w⟩ =
    .ok (.next, ⟨enc s x, F' :: pktVars e mt snr rssi port n frameStart :: fs, w⟩) := by
  refine ⟨("pld_size", [.int .u8 0]) :: ("pld", [.null]) :: F.put "offset" [.int .u8 (8 + fo)], ?_, ?_⟩
  · constructor
    · exact (Objs.get_put_other F "offset" "buf" _ (by decide)).trans hF.buf
    · exact (Objs.get_put_other F "offset" "pkt" _ (by decide)).trans hF.pkt
    · exact (Objs.get_put_other F "offset" "mic" _ (by decide)).trans hF.mic
    · rfl
    · rfl
    · exact (Objs.get_put_other F "offset" "key" _ (by decide)).trans hF.key
  have h1 := hF.fopts
  have h2 := hF.offset
  have h3 := fun v => (Objs.get_put_other F "offset" "pkt" v (by decide)).trans hF.pkt
  have h4 := fun v => (Objs.get_put_other F "offset" "pld" v (by decide)).trans hF.pld
  have h5 := fun v => (Objs.get_put_other F "offset" "pld_size" v (by decide)).trans hF.size
  have h6 := fun v => (Objs.get_put_other F "offset" "f_opts_len" v (by decide)).trans hF.fopts
  have h7 := fun v => (Objs.get_put_other F "offset" "msg_min_size" v (by decide)).trans hF.min
  unfold dataLate Src.handle_data_msg pktVars
  have hs : n - (12 + fo) = 0 := by omega
  crun [Stmt.upTo, Stmt.after, getObj_top2, putObj_top2, getObj_below, h1, h2, h3, h4, h5, h6, h7, hs]


theorem data_payload (hfr : s.frame.length = 255) (fo : Nat) (hfo : fo < 16) (hF : DataTop fs F 8 fo noMic) (j : Nat) (hn : n = 12 + fo + (j + 1)) (hj : j < 243) (po : Byte) (hpo : byteAt s.frame (8 + fo) = po) :
    ∃ F', DataPld fs F' noMic (fptr ((9 + fo : Nat) : Int)) j ∧ exec ⟨host I, call (host I) Src.prog L (k + 6), L⟩ (((dataLate.after 1).after 1).upTo 6)
      ⟨enc s x, F :: pktVars e mt snr rssi port n frameStart :: fs, w⟩ =
    .ok (.next, ⟨enc s x, F' :: pktVars e mt snr rssi po.toNat n frameStart :: fs, w⟩) := by
  refine ⟨("pld_size", [.int .u8 j]) :: ("pld", [fptr ((9 + fo : Nat) : Int)]) :: (F.put "offset" [.int .u8 (8 + fo)]).put "offset" [.int .u8 (9 + fo)], ?_, ?_⟩
  · constructor
    · exact (Objs.get_put_other _ "offset" "buf" _ (by decide)).trans ((Objs.get_put_other F "offset" "buf" _ (by decide)).trans hF.buf)
    · exact (Objs.get_put_other _ "offset" "pkt" _ (by decide)).trans ((Objs.get_put_other F "offset" "pkt" _ (by decide)).trans hF.pkt)
    · exact (Objs.get_put_other _ "offset" "mic" _ (by decide)).trans ((Objs.get_put_other F "offset" "mic" _ (by decide)).trans hF.mic)
    · rfl
    · rfl
    · exact (Objs.get_put_other _ "offset" "key" _ (by decide)).trans ((Objs.get_put_other F "offset" "key" _ (by decide)).trans hF.key)
  have h1 := hF.fopts
  have h2 := hF.offset
  have h2' := fun v => Objs.get_put v hF.offset
  have h2'' := fun u v => Objs.get_put v (h2' u)
  have h3 := fun v => (Objs.get_put_other F "offset" "pkt" v (by decide)).trans hF.pkt
  have h4 := fun v => (Objs.get_put_other F "offset" "pld" v (by decide)).trans hF.pld
  have h5 := fun v => (Objs.get_put_other F "offset" "pld_size" v (by decide)).trans hF.size
  have h6 := fun v => (Objs.get_put_other F "offset" "f_opts_len" v (by decide)).trans hF.fopts
  have h7 := fun v => (Objs.get_put_other F "offset" "msg_min_size" v (by decide)).trans hF.min
  have h8 := fun v => (Objs.get_put_other F "offset" "buf" v (by decide)).trans hF.buf
  have h8' := fun u v => (Objs.get_put_other (F.put "offset" u) "offset" "buf" v (by decide)).trans (h8 u)
  have h3' := fun u v => (Objs.get_put_other (F.put "offset" u) "offset" "pkt" v (by decide)).trans (h3 u)
  have hlt := po.isLt
  unfold dataLate Src.handle_data_msg pktVars fptr
  have hs : n - (12 + fo) = ((j + 1 : Nat) : Int) := by omega
  have hs1 : 0 < ((j + 1 : Nat) : Int) := by omega
  have hs2 : ((j + 1 : Nat) : Int) - 1 = j := by omega
  have ho : (8 + fo : Int) + 1 = 9 + fo := by omega
  have ho' : ((9 + fo : Nat) : Int) = 9 + fo := by omega
  rw [ho']
  crun [Stmt.upTo, Stmt.after, getObj_top2, putObj_top2, getObj_below, putObj_below, h1, h2, h2', h2'', h3, h3', h4, h5, h6, h7, h8, h8', hs, hs1, hs2, ho, hpo]


end
end Uwan.C
