import Verif.Lemmas.JoinHist
import Verif.Lemmas.Received
import Verif.Lemmas.Safety
import Verif.Spec.Keys

/-! The computations made by each part of the stack (C110). -/

namespace Uwan
open Spec

variable {E : Env}

/-- A list of calls that makes the computations `u` and leaves no context open. -/
def Does (ev : List Ev) (u : List Use) : Prop := ∀ l, uses (ev ++ l) = u ++ uses l

theorem Does.uses {ev : List Ev} {u : List Use} (h : Does ev u) : Spec.uses ev = u := by
  have := h []
  rw [List.append_nil] at this
  rw [this]
  exact List.append_nil u

theorem Does.append {a b : List Ev} {u w : List Use} (ha : Does a u) (hb : Does b w) : Does (a ++ b) (u ++ w) := by
  intro l
  rw [List.append_assoc, ha, hb, List.append_assoc]

theorem Does.nil : Does [] [] := fun _ => rfl

/-- Effects without any crypto call. -/
def noCrypto : Ev → Bool
  | .aesNew _ => false
  | .aesEncrypt _ => false
  | .aesDel => false
  | .cmacNew _ => false
  | .cmacUpdate _ => false
  | .cmacFinish => false
  | .cmacDel => false
  | _ => true

theorem Does.of {ev : List Ev} (h : ∀ e ∈ ev, noCrypto e = true) : Does ev [] := by
  intro l
  induction ev with
  | nil => rfl
  | cons x ev ih =>
    have hx := h x List.mem_cons_self
    have hi := ih fun e he => h e (List.mem_cons_of_mem _ he)
    rw [List.cons_append]
    cases x <;> first | exact Bool.noConfusion hx | exact hi

theorem Does.mac {l : Bytes} {ev : List Ev} (h : ∀ e ∈ ev, MacEv l e) : Does ev [] := by
  refine Does.of fun e he => ?_
  rcases h e he with ⟨_, _, rfl⟩ | rfl | ⟨_, _, _, rfl⟩ | ⟨rfl, -⟩ <;> rfl

theorem shiftMark_does (b : Byte) : Does (shiftMark b) [] := by
  refine Does.of fun e he => ?_
  rw [(shiftMark_mem he).1]
  rfl

theorem calcMic_does (ss : Session) (m : Bytes) (k : Block) (d : Byte) :
    Does (calcMic E ss m k d true).2 [micUse k d.toNat ss.devAddr.toNat (ss.cnt d).toNat m] := by
  intro l
  unfold calcMic micUse
  simp only [↓reduceIte]
  rw [← b0Block_eq]
  rfl

theorem calcMic_does_plain (ss : Session) (m : Bytes) (k : Block) (d : Byte) :
    Does (calcMic E ss m k d false).2 [.cmac k m] := fun _ => rfl

theorem encLoop_uses (key : Block) (dir : Byte) (addr fcnt : U32) : ∀ (n i : Nat) (l : Bytes) (r : List Ev), l.length ≤ n →
    usesFrom (.aes key) ((encLoop (E.aes key) dir addr fcnt n (BitVec.ofNat 8 i) l).2 ++ r) =
      ((List.range ((l.length + 15) / 16)).map fun j => Use.aes key (blockA dir.toNat addr.toNat fcnt.toNat (i + j))) ++
        usesFrom (.aes key) r
  | 0, _, [], r, _ => rfl
  | 0, _, _ :: _, r, h => absurd h (Nat.not_succ_le_zero _)
  | n + 1, _, [], r, _ => rfl
  | n + 1, i, x :: l, r, h => by
    have e : (BitVec.ofNat 8 i + 1 : Byte) = BitVec.ofNat 8 (i + 1) := by
      rw [BitVec.ofNat_add]; rfl
    have ih := encLoop_uses key dir addr fcnt n (i + 1) ((x :: l).drop 16) r (by rw [List.length_drop]; have := h; rw [List.length_cons] at this ⊢; omega)
    have hk : ((x :: l).length + 15) / 16 = (((x :: l).drop 16).length + 15) / 16 + 1 := by
      rw [List.length_drop, List.length_cons]; omega
    rw [hk, List.range_succ_eq_map]
    have e0 : (encLoop (E.aes key) dir addr fcnt (n + 1) (BitVec.ofNat 8 i) (x :: l)).2 = .aesEncrypt (aBlock dir addr fcnt (BitVec.ofNat 8 i)) ::
        (encLoop (E.aes key) dir addr fcnt n (BitVec.ofNat 8 (i + 1)) ((x :: l).drop 16)).2 := by rw [← e]; rfl
    rw [e0, List.cons_append, aBlock_eq, List.map_cons, List.map_map, List.cons_append, Nat.add_zero]
    refine congrArg _ (ih.trans (congrArg (· ++ usesFrom (.aes key) r) ?_))
    apply List.map_congr_left
    intro j _
    simp only [Function.comp]
    rw [show i + 1 + j = i + (j + 1) by omega]

theorem encryptPayload_does (ss : Session) (buf : Bytes) (key : Block) (dir : Byte) :
    Does (encryptPayload E ss buf key dir).2 (streamUses key dir.toNat ss.devAddr.toNat (ss.cnt dir).toNat buf.length) := by
  intro l
  have := encLoop_uses (E := E) key dir ss.devAddr (ss.cnt dir) buf.length 1 buf ([.aesDel] ++ l) (Nat.le_refl _)
  show usesFrom .none (.aesNew key :: (encLoop (E.aes key) dir ss.devAddr (ss.cnt dir) buf.length (BitVec.ofNat 8 1) buf).2 ++ [.aesDel] ++ l) = _
  rw [List.append_assoc]
  refine Eq.trans this ?_
  unfold streamUses
  congr 1
  apply List.map_congr_left
  intro j _
  rw [Nat.add_comm]

theorem deriveSessionKey_does (k : Block) (t : Byte) (a b c : U32) :
    Does (deriveSessionKey E k t a b c).2 [.aes k (keyInput t.toNat a.toNat b.toNat c.toNat)] := by
  have : keyInput t.toNat a.toNat b.toNat c.toNat = #v[t, byteOf a 0, byteOf a 1, byteOf a 2,
       byteOf b 0, byteOf b 1, byteOf b 2, byteOf c 0, byteOf c 1, 0, 0, 0, 0, 0, 0, 0] := by
    apply block_ext
    rw [keyInput, blockOf_toList (by simp [leBytes_length]), leBytes3, leBytes3, leBytes2]
    simp
  rw [this]
  exact fun _ => rfl

theorem buildUplink_does (s : St) (p : Byte) (l : Bytes) (c : Bool) :
    Does (buildUplink E s p l c).2 (streamUses s.session.appSKey 0 s.session.devAddr.toNat s.session.fCntUp.toNat l.length ++
      [micUse s.session.nwkSKey 0 s.session.devAddr.toNat s.session.fCntUp.toNat (signed (buildUplink E s p l c).1)]) := by
  have hs : signed (buildUplink E s p l c).1 = _ := signed_append _ _ (by
    rw [calcMic_eq]; exact dataMic_length ..)
  rw [hs]
  unfold buildUplink
  refine Does.append ?_ (calcMic_does _ _ _ _)
  by_cases h : l.length = 0
  · have : l = [] := List.eq_nil_of_length_eq_zero h
    subst this
    exact Does.nil
  · rw [if_pos h]
    exact encryptPayload_does _ _ _ _

theorem DHdr.plain_does (H : DHdr) (ss : Session) (d : U32) :
    Does (H.plain E ss d).2 (streamUses (H.key ss) 1 ss.devAddr.toNat d.toNat (H.tail.drop 1).length) := by
  unfold DHdr.plain
  match H.tail with
  | [] => exact Does.nil
  | [p] =>
    have : streamUses (H.key ss) 1 ss.devAddr.toNat d.toNat ([p].drop 1).length = [] := by simp [streamUses]
    rw [this]
    exact Does.nil
  | _ :: b :: l => exact encryptPayload_does _ _ _ _

theorem DataCase.does {bat : Nat → Byte} {s : St} {pkt : DlPkt} {buf : Bytes} {e : Err} {s' : St} {p' : DlPkt} {ev : List Ev}
    {v : View} (hv : ViewOf v s) (hc : DataCase E bat s pkt buf e s' p' ev) (he : e = verdict E v (cfgOf s).down buf) :
    Does ev (dataUses E v (cfgOf s).down buf) := by
  unfold dataUses
  rw [← he]
  have hmic : ∀ (H : DHdr) (d : U32) (f : DataFrame), nextDown (cfgOf s).down f.fCnt = some d.toNat →
      Does (H.mic E s.session d).2 [micUse v.nwk 1 v.addr ((nextDown (cfgOf s).down f.fCnt).getD 0) (signed H.bytes)] := by
    intro H d f hn
    rw [hn, hv.nwk, hv.addr]
    exact calcMic_does (E := E) { s.session with fCntDown := d } _ _ 1
  cases hc with
  | short => exact Does.nil
  | mhdr => exact Does.nil
  | addr => exact shiftMark_does _
  | fopts => exact shiftMark_does _
  | fcnt => exact shiftMark_does _
  | mic H d s2 ev1 hb hl ht ha hf hd hm hi hfr hmm =>
    subst hb
    obtain ⟨f, hp, h1, h2, h3, h4, h5, h6, h7⟩ := H.parse hl hf
    have hnx : nextDown (cfgOf s).down f.fCnt = some d.toNat := by
      rw [h3]; show nextDown s.session.fCntDown.toNat _ = _
      rw [nextDown_eq, hd]; rfl
    rw [hp]
    exact ((shiftMark_does _).append (Does.mac (macLoop_macEv _ _ _ _ _ _ hm))).append (hmic H d f hnx)
  | good H d s2 ev1 fr hb hl ht ha hf hd hm hi hfr hmm hlen =>
    subst hb
    obtain ⟨f, hp, h1, h2, h3, h4, h5, h6, h7⟩ := H.parse hl hf
    have hnx : nextDown (cfgOf s).down f.fCnt = some d.toNat := by
      rw [h3]; show nextDown s.session.fCntDown.toNat _ = _
      rw [nextDown_eq, hd]; rfl
    rw [hp]
    have hk : (if f.port = some 0 then v.nwk else v.app) = H.key s.session := by
      unfold DHdr.key
      rw [h5, hv.nwk, hv.app]
      cases H.tail.head? with
      | none => rfl
      | some b =>
        by_cases hb : b = 0
        · subst hb; rfl
        · rw [if_neg (by simpa [← BitVec.toNat_inj] using hb), if_neg (by simpa using hb)]
    have hpl := H.plain_does (E := E) s.session d
    have := (((shiftMark_does H.a3).append (Does.mac (macLoop_macEv _ _ _ _ _ _ hm))).append (hmic H d f hnx)).append hpl
    simp only
    rw [hk, h6]
    rw [hnx] at this ⊢
    rw [hv.addr] at this ⊢
    exact this

theorem joinDecEv_does (key : Block) (blks : List Block) (hn : blks.length = 1 ∨ blks.length = 2) (buf : Bytes)
    (hb : buf = 0x20 :: blks.flatMap (·.toList)) :
    Does (joinDecEv key blks) (.aes key (blockOf ((buf.drop 1).take 16)) ::
      (if buf.length ≤ 17 then [] else [.aes key (blockOf ((buf.drop 17).take 16))])) := by
  subst hb
  rcases hn with hn | hn
  · match blks, hn with
    | [b], _ =>
      have h1 : ((0x20 : Byte) :: [b].flatMap (·.toList)).length ≤ 17 := by simp
      rw [if_pos h1]
      simp only [List.flatMap_cons, List.flatMap_nil, List.append_nil, List.drop_succ_cons, List.drop_zero]
      rw [List.take_of_length_le (by simp), blockOf_of_toList]
      exact fun _ => rfl
  · match blks, hn with
    | [b, c], _ =>
      have h1 : ¬ ((0x20 : Byte) :: [b, c].flatMap (·.toList)).length ≤ 17 := by simp
      rw [if_neg h1]
      simp only [List.flatMap_cons, List.flatMap_nil, List.append_nil, List.drop_succ_cons, List.drop_zero]
      rw [List.take_left' (by simp), List.drop_left' (by simp), List.take_of_length_le (by simp), blockOf_of_toList, blockOf_of_toList]
      exact fun _ => rfl

theorem JoinCase.does {s : St} {pkt : DlPkt} {buf : Bytes} {e : Err} {s' : St} {p' : DlPkt} {ev : List Ev}
    {v : View} (hv : ViewOf v s) (hc : JoinCase E s pkt buf e s' p' ev) : Does ev (joinUses E v buf) := by
  have he := hc.verdict
  unfold joinUses
  rw [hv.appKey]
  simp only
  rw [← he]
  have hlen : ∀ (blks : List Block), buf = 0x20 :: blks.flatMap (·.toList) → (blks.length = 1 ∨ blks.length = 2) →
      buf.length = (joinDec E s.appKey blks).length + 1 := by
    intro blks hb hn
    have hl := joinDec_length E s.appKey blks
    rw [hb, hl]
    rcases hn with hn | hn
    · match blks, hn with
      | [b], _ => simp
    · match blks, hn with
      | [b, c], _ => simp
  have hmic : ∀ (blks : List Block), buf = 0x20 :: blks.flatMap (·.toList) → (blks.length = 1 ∨ blks.length = 2) →
      Does (joinDecEv s.appKey blks ++ joinMicEv s.appKey ((0x20 :: joinDec E s.appKey blks).take (buf.length - 4)))
        (.aes s.appKey (blockOf ((buf.drop 1).take 16)) ::
          ((if buf.length ≤ 17 then [] else [.aes s.appKey (blockOf ((buf.drop 17).take 16))]) ++
          [.cmac s.appKey (0x20 :: (joinClear E s.appKey buf).take ((joinClear E s.appKey buf).length - 4))])) := by
    intro blks hb hn
    have h1 := joinDecEv_does s.appKey blks hn buf hb
    have hd := joinDec_eq (E := E) s.appKey blks hn buf hb
    have hl := joinDec_length E s.appKey blks
    have e2 : (0x20 :: joinDec E s.appKey blks).take (buf.length - 4) =
        0x20 :: (joinClear E s.appKey buf).take ((joinClear E s.appKey buf).length - 4) := by
      rw [← hd, hlen blks hb hn, show (joinDec E s.appKey blks).length + 1 - 4 = ((joinDec E s.appKey blks).length - 4) + 1 by
        rw [hl]; omega, List.take_succ_cons]
    rw [e2]
    exact h1.append (b := joinMicEv s.appKey _) (w := [.cmac s.appKey _]) fun _ => rfl
  cases hc with
  | len => exact Does.nil
  | mhdr => exact Does.nil
  | mic blks fr hb hn hlen h => exact hmic blks hb hn
  | good blks fr J c hb hn hlen h hJ hc hci =>
    simp only
    have hd := joinDec_eq (E := E) s.appKey blks hn buf hb
    have n1 : leNat ((joinClear E s.appKey buf).take 3) = (or24 J.n0 J.n1 J.n2).toNat := by
      rw [← hd, hJ, or24_toNat]; rfl
    have n2 : leNat (((joinClear E s.appKey buf).drop 3).take 3) = (or24 J.i0 J.i1 J.i2).toNat := by
      rw [← hd, hJ, or24_toNat]; rfl
    rw [n1, n2, hv.nonce]
    have d1 : Does (J.nwk E s).2 _ := deriveSessionKey_does _ _ _ _ _
    have d2 : Does (J.app E s).2 _ := deriveSessionKey_does _ _ _ _ _
    have := ((((hmic blks hb hn).append (shiftMark_does J.a3)).append d1)).append d2
    simpa using this

theorem txSetup_does (s : St) (d : Sf × Bw) (f : U32) : Does (txSetup s d f) [] := fun _ => rfl
theorem tx_does (f : Bytes) : Does [.tx f] [] := fun _ => rfl

theorem end_does {ev0 ev : List Ev} {e : Err} {m : Byte} {p : DlPkt} {u : List Use} (h0 : ev0 = [.stopTimer .rx2] ∨ ev0 = [])
    (h : Does ev u) : Does (ev0 ++ [.readPacket, .sleep] ++ ev ++ [.downlink e m p]) u := by
  have h1 : Does (ev0 ++ [.readPacket, .sleep]) [] := by rcases h0 with rfl | rfl <;> exact fun _ => rfl
  have := (h1.append h).append (b := [.downlink e m p]) (w := []) fun _ => rfl
  rwa [List.append_nil, List.nil_append] at this

theorem DlCase.does {o : Oracle} {s : St} {err : Err} {s' : St} {ev : List Ev} (hc : DlCase E o s err s' ev)
    (hres : ∀ r ∈ results ev, r.1 = .rxTimeout ∨ r.1 = .rxCrc) : Does ev [] := by
  cases hc with
  | none => exact fun _ => rfl
  | join e s1 p ev1 h hj hc =>
    have := results_end (e := e) (m := rxMtype o s) (p := p) (.inr rfl) hc.quiet
    rw [List.nil_append] at this
    have := hres (e, rxMtype o s, p) (by rw [this]; exact List.mem_singleton.mpr rfl)
    have hne := hc.code
    exact absurd this (by rintro (h | h); exact hne.1 h; exact hne.2 h)
  | data e s1 p ev1 h hj hc =>
    have := results_end (e := e) (m := rxMtype o s) (p := p) (.inr rfl) hc.quiet
    rw [List.nil_append] at this
    have := hres (e, rxMtype o s, p) (by rw [this]; exact List.mem_singleton.mpr rfl)
    have hne := hc.code
    exact absurd this (by rintro (h | h); exact hne.1 h; exact hne.2 h)

/-- Operations that compute nothing. -/
theorem step_does {s s' : St} {op : Op} {r : Ret} {ev : List Ev} (hi : Inv s) (hs : step E s op = .ok (r, s', ev))
    (h1 : ∀ r1 r2, op = .join r1 r2 → r ≠ .err .no) (h2 : ∀ p pld c rnd, op = .send p pld c rnd → r ≠ .err .no)
    (hres : ∀ r ∈ results ev, r.1 = .rxTimeout ∨ r.1 = .rxCrc) : Does ev [] := by
  by_cases hc : op.isCfg = true
  · rw [(step_cfg hc hs).1]; exact Does.nil
  cases op with
  | init rg =>
    simp only [step, Except.ok.injEq, Prod.mk.injEq] at hs
    rw [← hs.2.2]
    exact fun _ => rfl
  | join r1 r2 =>
    obtain ⟨e, rfl, hcs⟩ := step_join hi hs
    cases hcs with
    | state => exact Does.nil
    | channel => exact Does.nil
    | sent f d hp hg hf => exact absurd rfl (h1 _ _ rfl)
  | send p l c rn =>
    obtain ⟨e, rfl, hcs⟩ := step_send hi hs
    cases hcs with
    | state => exact Does.nil
    | channel => exact Does.nil
    | len => exact Does.nil
    | sent f d hp hg hf => exact absurd rfl (h2 _ _ _ _ rfl)
  | timer id =>
    obtain ⟨rfl, hev⟩ := step_timer hs
    rcases hev with rfl | ⟨rfl, hp⟩ <;> exact fun _ => rfl
  | event m o =>
    have hev := step_event hi hs
    cases hev with
    | ignore => exact Does.nil
    | txDone mm ev2 hp hm hmac =>
      refine Does.append (u := []) (w := []) (fun _ => rfl) (Does.of fun e he => ?_)
      unfold macOnTxComplete at hmac
      split at hmac
      · split at hmac
        · cases hmac
        · split at hmac <;> simp only [Except.ok.injEq, Prod.mk.injEq] at hmac <;> rw [← hmac.2] at he
          · obtain rfl := List.mem_singleton.mp he; rfl
          · cases he
      · simp only [Except.ok.injEq, Prod.mk.injEq] at hmac; rw [← hmac.2] at he; cases he
    | rx1Timeout d hp hm => exact fun _ => rfl
    | rx1Done _ ev hp _ _ hc => exact Does.append (a := [.stopTimer .rx2]) (u := []) (w := []) (fun _ => rfl) (hc.does hres)
    | rx2Timeout _ ev hp _ hc => exact hc.does hres
    | rx2Done _ ev hp _ _ hc => exact hc.does hres
  | _ => exact absurd rfl hc

end Uwan
