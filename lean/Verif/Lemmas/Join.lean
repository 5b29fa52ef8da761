import Verif.Lemmas.Data

/-! What `handle_join_msg` does with every byte string, as a case list. -/

namespace Uwan

theorem toBlock?_append (b : Block) (l : Bytes) : toBlock? (b.toList ++ l) = some b := by
  have e : (b.toList ++ l).take 16 = b.toList := by
    rw [List.take_append_of_le_length (by simp)]
    exact List.take_of_length_le (by simp)
  unfold toBlock?
  rw [dif_pos (by rw [e]; simp)]
  congr 1
  apply Vector.toArray_inj.mp
  simp only [e]
  exact Array.toArray_toList

theorem exists_block {l : Bytes} (h : 16 ≤ l.length) : ∃ b : Block, l = b.toList ++ l.drop 16 := by
  refine ⟨⟨(l.take 16).toArray, by simp; omega⟩, ?_⟩
  show l = (l.take 16).toArray.toList ++ l.drop 16
  rw [List.toList_toArray, List.take_append_drop]

theorem cflistLoop_ok (first : Nat) : ∀ (n i : Nat) (l : Bytes) (c : Chan), ChanInv c → 3 * n ≤ l.length →
    ∃ c', cflistLoop first n i l c = .ok c' ∧ ChanInv c'
  | 0, _, _, c, h, _ => ⟨c, rfl, h⟩
  | n + 1, i, x :: y :: z :: l, c, h, hl => by
    refine cflistLoop_ok first n (i + 1) l _ ?_ (by simp at hl; omega)
    split
    · exact h.enableChannel _ _
    · exact h.setChannel _ _
  | n + 1, _, [], _, _, hl => by simp at hl
  | n + 1, _, [_], _, _, hl => by simp at hl; omega
  | n + 1, _, [_, _], _, _, hl => by simp at hl; omega

theorem handleCflist_ok (r : Region) {l : Bytes} {c : Chan} (h : ChanInv c) (hl : 16 ≤ l.length) :
    ∃ c', handleCflist r l c = .ok c' ∧ ChanInv c' := by
  unfold handleCflist
  have : l[15]? = some l[15] := List.getElem?_eq_getElem (by omega)
  simp only [this, orOob, bind, Except.bind]
  split
  · exact ⟨c, rfl, h⟩
  · exact cflistLoop_ok _ 5 0 l c h (by omega)

theorem Inv.joinRxParams {s : St} (h : Inv s) (dl dly : Byte) : Inv (joinRxParams s dl dly) := by
  unfold Uwan.joinRxParams
  simp only
  have h1 : Inv (if isValidDr ((dl >>> 4) &&& 7).toNat then { s with rx1Offset := (dl >>> 4) &&& 7 } else s) := by
    split
    · next hv => exact { h with rx1Offset := isValidDr_byte hv }
    · exact h
  revert h1
  generalize (if isValidDr ((dl >>> 4) &&& 7).toNat then { s with rx1Offset := (dl >>> 4) &&& 7 } else s) = s1
  intro h1
  have h2 : Inv (if isValidDr (dl &&& 0xf).toNat then { s1 with rx2Dr := (dl &&& 0xf).toNat } else s1) := by
    split
    · next hv => exact { h1 with rx2Dr := isValidDr_byte hv }
    · exact h1
  have hd : 1 ≤ (if dly &&& 0xf = 0 then 1 else dly &&& 0xf : Byte).toNat ∧
      (if dly &&& 0xf = 0 then 1 else dly &&& 0xf : Byte).toNat ≤ 15 := by
    split
    · decide
    · next hz =>
      have hle : (dly &&& 0xf).toNat ≤ 15 := by rw [BitVec.toNat_and]; exact Nat.and_le_right
      have hne : (dly &&& 0xf).toNat ≠ 0 := fun e => hz (BitVec.eq_of_toNat_eq e)
      omega
  exact { h2 with delay := ⟨_, hd.1, hd.2, rfl⟩ }

theorem joinRxParams_region (s : St) (dl dly : Byte) : (joinRxParams s dl dly).region = s.region := by
  unfold joinRxParams; simp only; split <;> split <;> rfl

theorem joinRxParams_chan (s : St) (dl dly : Byte) : (joinRxParams s dl dly).chan = s.chan := by
  unfold joinRxParams; simp only; split <;> split <;> rfl

/-- The decrypted fields of a join-accept. -/
structure JMsg where
  n0 : Byte
  n1 : Byte
  n2 : Byte
  i0 : Byte
  i1 : Byte
  i2 : Byte
  a0 : Byte
  a1 : Byte
  a2 : Byte
  a3 : Byte
  dl : Byte
  dly : Byte
  rest : Bytes

namespace JMsg
variable (J : JMsg)
/-- The decrypted bytes after MHDR. -/
def bytes : Bytes := J.n0 :: J.n1 :: J.n2 :: J.i0 :: J.i1 :: J.i2 :: J.a0 :: J.a1 :: J.a2 :: J.a3 :: J.dl :: J.dly :: J.rest
/-- The NwkSKey computed and the calls made. -/
def nwk (E : Env) (s : St) : Block × List Ev :=
  deriveSessionKey E s.appKey 0x01 (or24 J.n0 J.n1 J.n2) (or24 J.i0 J.i1 J.i2) s.devNonce
/-- The AppSKey computed and the calls made. -/
def app (E : Env) (s : St) : Block × List Ev :=
  deriveSessionKey E s.appKey 0x02 (or24 J.n0 J.n1 J.n2) (or24 J.i0 J.i1 J.i2) s.devNonce
/-- The state after acceptance. -/
def done (E : Env) (s : St) (c : Chan) : St :=
  setSession { joinRxParams s J.dl J.dly with chan := c } (or32 J.a0 J.a1 J.a2 J.a3) 0 0 (J.nwk E s).1 (J.app E s).1
end JMsg

/-- Decrypted body. -/
def joinDec (E : Env) (key : Block) (blks : List Block) : Bytes := blks.flatMap (fun b => (E.aes key b).toList)
/-- Calls made to decrypt. -/
def joinDecEv (key : Block) (blks : List Block) : List Ev := .aesNew key :: blks.map .aesEncrypt ++ [.aesDel]
/-- The MIC of a decrypted join-accept. -/
def joinMic (E : Env) (key : Block) (buf : Bytes) : Bytes := (E.cmac key (buf.take (buf.length - 4))).toList.take 4
/-- Calls made for the MIC of a join message. -/
def joinMicEv (key : Block) (msg : Bytes) : List Ev := [.cmacNew key, .cmacUpdate msg, .cmacFinish, .cmacDel]

/-- The cases of `handle_join_msg` for the received bytes `buf`. -/
inductive JoinCase (E : Env) (s : St) (pkt : DlPkt) (buf : Bytes) : Err → St → DlPkt → List Ev → Prop where
  | len (h : buf.length ≠ 17 ∧ buf.length ≠ 33) : JoinCase E s pkt buf .msgLen s pkt []
  | mhdr (m : Byte) (body : Bytes) (hb : buf = m :: body) (hl : buf.length = 17 ∨ buf.length = 33)
      (h : m ≠ 0x20) : JoinCase E s pkt buf .msgMhdr s pkt []
  | mic (blks : List Block) (fr : Bytes) (hb : buf = 0x20 :: blks.flatMap (·.toList))
      (hn : blks.length = 1 ∨ blks.length = 2) (hlen : fr.length = 255)
      (h : (0x20 :: joinDec E s.appKey blks).drop (buf.length - 4) ≠
        joinMic E s.appKey (0x20 :: joinDec E s.appKey blks)) :
      JoinCase E s pkt buf .msgMic { s with frame := fr } { pkt with data := some (0x20 :: joinDec E s.appKey blks) }
        (joinDecEv s.appKey blks ++ joinMicEv s.appKey ((0x20 :: joinDec E s.appKey blks).take (buf.length - 4)))
  | good (blks : List Block) (fr : Bytes) (J : JMsg) (c : Chan) (hb : buf = 0x20 :: blks.flatMap (·.toList))
      (hn : blks.length = 1 ∨ blks.length = 2) (hlen : fr.length = 255)
      (h : (0x20 :: joinDec E s.appKey blks).drop (buf.length - 4) =
        joinMic E s.appKey (0x20 :: joinDec E s.appKey blks))
      (hJ : joinDec E s.appKey blks = J.bytes)
      (hc : joinCflist s (blks.length = 2) J.rest = .ok c) (hci : ChanInv c) :
      JoinCase E s pkt buf .no (J.done E { s with frame := fr } c)
        { pkt with data := some (0x20 :: joinDec E s.appKey blks) }
        (joinDecEv s.appKey blks ++ joinMicEv s.appKey ((0x20 :: joinDec E s.appKey blks).take (buf.length - 4)) ++
          shiftMark J.a3 ++ (J.nwk E s).2 ++ (J.app E s).2)

theorem JMsg.exists {l : Bytes} (h : 12 ≤ l.length) : ∃ J : JMsg, l = J.bytes := by
  match l, h with
  | a :: b :: c :: d :: e :: f :: g :: i :: j :: k :: m :: n :: l, _ => exact ⟨⟨a, b, c, d, e, f, g, i, j, k, m, n, l⟩, rfl⟩
  | [], h => simp at h
  | [_], h => simp at h
  | [_, _], h => simp at h
  | [_, _, _], h => simp at h
  | [_, _, _, _], h => simp at h
  | [_, _, _, _, _], h => simp at h
  | [_, _, _, _, _, _], h => simp at h
  | [_, _, _, _, _, _, _], h => simp at h
  | [_, _, _, _, _, _, _, _], h => simp at h
  | [_, _, _, _, _, _, _, _, _], h => simp at h
  | [_, _, _, _, _, _, _, _, _, _], h => simp at h
  | [_, _, _, _, _, _, _, _, _, _, _], h => simp at h

theorem joinDec_length (E : Env) (key : Block) (blks : List Block) :
    (joinDec E key blks).length = 16 * blks.length := by
  unfold joinDec
  induction blks with
  | nil => rfl
  | cons b l ih => simp only [List.flatMap_cons, List.length_append, ih]; simp; omega

theorem joinRxParams_appKey (s : St) (dl dly : Byte) : (joinRxParams s dl dly).appKey = s.appKey := by
  unfold joinRxParams; simp only; split <;> split <;> rfl

theorem joinRxParams_devNonce (s : St) (dl dly : Byte) : (joinRxParams s dl dly).devNonce = s.devNonce := by
  unfold joinRxParams; simp only; split <;> split <;> rfl

theorem joinFinish_cases (E : Env) {s : St} (h : Inv s) (hr : s.region.isSome = true)
    (pkt : DlPkt) (blks : List Block) (hn : blks.length = 1 ∨ blks.length = 2) :
    let buf := 0x20 :: joinDec E s.appKey blks
    (buf.drop (buf.length - 4) ≠ joinMic E s.appKey buf ∧
      joinFinish E s pkt buf (blks.length = 2) =
        .ok (.msgMic, s, pkt, joinMicEv s.appKey (buf.take (buf.length - 4)))) ∨
    (buf.drop (buf.length - 4) = joinMic E s.appKey buf ∧ ∃ J c, joinDec E s.appKey blks = JMsg.bytes J ∧
      joinCflist s (blks.length = 2) J.rest = .ok c ∧ ChanInv c ∧
      joinFinish E s pkt buf (blks.length = 2) =
        .ok (.no, J.done E s c, pkt, joinMicEv s.appKey (buf.take (buf.length - 4)) ++
          (shiftMark J.a3 ++ (J.nwk E s).2 ++ (J.app E s).2))) := by
  simp only
  unfold joinFinish
  have hmic : calcMic E s.session ((0x20 :: joinDec E s.appKey blks).take
      ((0x20 :: joinDec E s.appKey blks).length - 4)) s.appKey 0 false =
      (joinMic E s.appKey (0x20 :: joinDec E s.appKey blks), joinMicEv s.appKey ((0x20 :: joinDec E s.appKey blks).take
      ((0x20 :: joinDec E s.appKey blks).length - 4))) := rfl
  simp only [hmic]
  by_cases hm : (0x20 :: joinDec E s.appKey blks).drop ((0x20 :: joinDec E s.appKey blks).length - 4) =
      joinMic E s.appKey (0x20 :: joinDec E s.appKey blks)
  rotate_left
  · left; exact ⟨hm, by rw [if_pos hm]⟩
  right
  refine ⟨hm, ?_⟩
  rw [if_neg (by simpa using hm)]
  have hlen := joinDec_length E s.appKey blks
  obtain ⟨J, hJ⟩ := JMsg.exists (l := joinDec E s.appKey blks) (by omega)
  have hrest : J.rest.length + 12 = 16 * blks.length := by rw [← hlen, hJ]; simp [JMsg.bytes]
  obtain ⟨r, hr⟩ := Option.isSome_iff_exists.mp hr
  have hcf : ∃ c, joinCflist s (blks.length = 2) J.rest = .ok c ∧ ChanInv c := by
    unfold joinCflist
    rcases hn with hn | hn
    · simp only [hn]; exact ⟨_, rfl, h.chan⟩
    · simp only [hn, hr]; exact handleCflist_ok r h.chan (by omega)
  obtain ⟨c, hc, hci⟩ := hcf
  refine ⟨J, c, hJ, hc, hci, ?_⟩
  have hc' : joinCflist (joinRxParams s J.dl J.dly) (blks.length = 2) J.rest = .ok c := by
    rw [← hc]; unfold joinCflist; rw [joinRxParams_region, joinRxParams_chan]
  have hacc : joinAccepted E s (0x20 :: joinDec E s.appKey blks) (blks.length = 2) =
      .ok (J.done E s c, shiftMark J.a3 ++ (J.nwk E s).2 ++ (J.app E s).2) := by
    rw [hJ]
    show (joinCflist (joinRxParams s J.dl J.dly) (blks.length = 2) J.rest >>= fun chan => _) = _
    rw [hc']
    simp only [bind, Except.bind, joinRxParams_appKey, joinRxParams_devNonce, JMsg.done, JMsg.nwk, JMsg.app]
  rw [hacc]
  rfl

theorem handleJoinMsg_cases (E : Env) {s : St} (h : Inv s) (hr : s.region.isSome = true)
    (pkt : DlPkt) (buf : Bytes) (hp : pkt.data = some buf) :
    ∃ e s' pkt' ev, handleJoinMsg E s pkt = .ok (e, s', pkt', ev) ∧ JoinCase E s pkt buf e s' pkt' ev := by
  unfold handleJoinMsg
  rw [hp]
  simp only
  by_cases hl : buf.length ≠ 17 ∧ buf.length ≠ 33
  · rw [if_pos hl]; exact ⟨_, _, _, _, rfl, .len hl⟩
  rw [if_neg hl]
  have hl' : buf.length = 17 ∨ buf.length = 33 := by omega
  match buf, hl' with
  | [], hl => simp at hl
  | m :: body, hl' =>
    simp only
    by_cases hm : m = 0x20
    rotate_left
    · rw [if_pos hm]; exact ⟨_, _, _, _, rfl, .mhdr m body rfl hl' hm⟩
    subst hm
    rw [if_neg (by simp)]
    have hbody : ∃ blks : List Block, body = blks.flatMap (·.toList) ∧ (blks.length = 1 ∨ blks.length = 2) ∧
        (decide (body.length = 32) = decide (blks.length = 2)) ∧
        joinDecrypt E s.appKey body (decide (blks.length = 2)) =
          .ok (joinDec E s.appKey blks, joinDecEv s.appKey blks) := by
      obtain ⟨b1, h1⟩ := exists_block (l := body) (by simp at hl'; omega)
      rcases hl' with hl' | hl'
      · have h0 : body.drop 16 = [] := by apply List.drop_of_length_le; simp at hl'; omega
        rw [h0] at h1
        have hne : ¬ body.length = 32 := by simp at hl'; omega
        refine ⟨[b1], by simpa using h1, .inl rfl, by simp [hne], ?_⟩
        rw [h1]
        simp only [joinDecrypt, toBlock?_append, orOob, bind, Except.bind]
        simp [joinDec, joinDecEv]
      · obtain ⟨b2, h2⟩ := exists_block (l := body.drop 16) (by simp at hl' ⊢; omega)
        have h0 : (body.drop 16).drop 16 = [] := by apply List.drop_of_length_le; simp at hl' ⊢; omega
        rw [h0] at h2
        have h3 : body = b1.toList ++ b2.toList := by rw [h2] at h1; simpa using h1
        have h4 : (b1.toList ++ b2.toList).drop 16 = b2.toList ++ [] := by
          rw [← h3]; exact h2
        have he : body.length = 32 := by simp at hl'; omega
        refine ⟨[b1, b2], by simpa using h3, .inr rfl, by simp [he], ?_⟩
        rw [h3]
        simp only [joinDecrypt, toBlock?_append, orOob, bind, Except.bind, h4]
        simp [joinDec, joinDecEv]
    obtain ⟨blks, hb, hn, hcl, hdec⟩ := hbody
    rw [hcl, hdec]
    simp only [bind, Except.bind]
    have hlen := joinDec_length E s.appKey blks
    obtain ⟨fr, hfr, hfrl⟩ := blit_ok (dst := s.frame) (off := 0) (src := 0x20 :: joinDec E s.appKey blks)
      (by rw [h.frame]; simp [hlen]; omega)
    rw [hfr]
    simp only
    have hbl : (0x20 :: body).length = (0x20 :: joinDec E s.appKey blks).length := by
      have : body.length = 16 * blks.length := by
        rw [hb]
        clear hb hn hcl hdec hlen hfr
        induction blks with
        | nil => rfl
        | cons b l ih => simp only [List.flatMap_cons, List.length_append, ih]; simp; omega
      simp [hlen, this]
    have hinv : Inv { s with frame := fr } := { h with frame := by rw [hfrl, h.frame] }
    rcases joinFinish_cases E hinv hr { pkt with data := some (0x20 :: joinDec E s.appKey blks) } blks hn with
      ⟨hx, he⟩ | ⟨hx, J, c, hJ, hc, hci, he⟩
    · simp only at he hx
      rw [he]
      refine ⟨_, _, _, _, rfl, ?_⟩
      rw [← hbl] at hx ⊢
      exact .mic blks fr (by rw [hb]) hn (by rw [hfrl, h.frame]) hx
    · simp only at he hx
      rw [he]
      refine ⟨_, _, _, _, rfl, ?_⟩
      rw [← hbl] at hx ⊢
      simp only [← List.append_assoc]
      exact .good blks fr J c (by rw [hb]) hn (by rw [hfrl, h.frame]) hx hJ hc hci

end Uwan
