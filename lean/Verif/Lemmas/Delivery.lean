import Verif.Lemmas.Payload
import Verif.Lemmas.Downlink
import Verif.Spec.Delivery

/-! # Two packets with the same header (lemmas for C134) -/

namespace Uwan
open Spec

variable {E : Env}

/-- A data downlink by its first byte. -/
def RxTyped (l : Bytes) : Prop := (l.headD 0).toNat / 32 = 3 ∨ (l.headD 0).toNat / 32 = 5

/-- Where the message starts. -/
def rxCut (mic : Nat) (l : Bytes) : Nat :=
  if 8 + (l.getD 5 0).toNat % 16 + mic < l.length then 8 + (l.getD 5 0).toNat % 16 + 1 else 8 + (l.getD 5 0).toNat % 16

theorem sealRx_typed {k : Nat} {l : Bytes} (h : RxTyped l) :
    sealRx k l = l.take (rxCut k l) ++ List.replicate (l.length - rxCut k l) 0 := if_pos h

theorem sealRx_other {k : Nat} {l : Bytes} (h : ¬RxTyped l) : sealRx k l = l := if_neg h

theorem rxCut_ge (k : Nat) (l : Bytes) : 8 ≤ rxCut k l := by unfold rxCut; split <;> omega

theorem sealRx_length (k : Nat) (l : Bytes) : (sealRx k l).length = l.length := by
  by_cases h : RxTyped l
  · rw [sealRx_typed h]; simp; omega
  · rw [sealRx_other h]

theorem sealRx_take (k : Nat) (l : Bytes) : (sealRx k l).take 8 = l.take 8 := by
  by_cases h : RxTyped l
  · rw [sealRx_typed h, List.take_append, List.take_take, Nat.min_eq_left (rxCut_ge k l)]
    by_cases hl : rxCut k l ≤ l.length
    · have := rxCut_ge k l
      rw [show 8 - (l.take (rxCut k l)).length = 0 by simp; omega]
      simp
    · rw [show l.length - rxCut k l = 0 by omega]
      simp
  · rw [sealRx_other h]

theorem getD_take {l : Bytes} {n i : Nat} (h : i < n) : (l.take n).getD i 0 = l.getD i 0 := by
  simp [List.getD, h]

theorem headD_take {l : Bytes} {n : Nat} (h : 0 < n) : (l.take n).headD 0 = l.headD 0 := by
  cases l <;> cases n <;> simp at *

/-- Two packets with the same header. -/
structure SameHead (a b : Bytes) : Prop where
  typed : RxTyped a
  len : a.length = b.length
  head : a.take (rxCut 4 a) = b.take (rxCut 4 a)

theorem SameHead.eight {a b : Bytes} (h : SameHead a b) : a.take 8 = b.take 8 := by
  have := congrArg (List.take 8) h.head
  simpa [List.take_take, Nat.min_eq_left (rxCut_ge 4 a)] using this

theorem SameHead.first {a b : Bytes} (h : SameHead a b) : a.headD 0 = b.headD 0 := by
  rw [← headD_take (n := 8) (by omega), h.eight, headD_take (by omega)]

theorem SameHead.ctrl {a b : Bytes} (h : SameHead a b) : a.getD 5 0 = b.getD 5 0 := by
  rw [← getD_take (n := 8) (by omega), h.eight, getD_take (by omega)]

theorem SameHead.typed2 {a b : Bytes} (h : SameHead a b) : RxTyped b := by
  have := h.typed; unfold RxTyped at *; rwa [← h.first]

theorem SameHead.cut {a b : Bytes} (h : SameHead a b) (k : Nat) : rxCut k b = rxCut k a := by
  unfold rxCut; rw [h.ctrl, h.len]

theorem sealRx_cases {a b : Bytes} (h : sealRx 4 a = sealRx 4 b) : a = b ∨ SameHead a b := by
  have hl : a.length = b.length := by rw [← sealRx_length 4 a, h, sealRx_length]
  have h8 : a.take 8 = b.take 8 := by rw [← sealRx_take 4 a, h, sealRx_take]
  have hf : a.headD 0 = b.headD 0 := by
    rw [← headD_take (n := 8) (by omega), h8, headD_take (by omega)]
  have hc : a.getD 5 0 = b.getD 5 0 := by
    rw [← getD_take (n := 8) (by omega), h8, getD_take (by omega)]
  by_cases ht : RxTyped a
  · have ht2 : RxTyped b := by unfold RxTyped at *; rwa [← hf]
    have hk : rxCut 4 b = rxCut 4 a := by unfold rxCut; rw [hc, hl]
    rw [sealRx_typed ht, sealRx_typed ht2, hk] at h
    exact .inr ⟨ht, hl, (List.append_inj h (by simp [hl])).1⟩
  · have ht2 : ¬RxTyped b := by unfold RxTyped at *; rwa [← hf]
    rw [sealRx_other ht, sealRx_other ht2] at h
    exact .inl h

/-- Only the bytes of the header count. -/
theorem SameHead.seal {a b : Bytes} (h : SameHead a b) : sealRx 4 a = sealRx 4 b := by
  rw [sealRx_typed h.typed, sealRx_typed h.typed2, h.cut, h.head, h.len]

theorem SameHead.cut_le {a b : Bytes} (_ : SameHead a b) : rxCut 4 a ≤ 24 := by
  unfold rxCut
  have : (a.getD 5 0).toNat % 16 < 16 := Nat.mod_lt _ (by omega)
  split <;> omega

theorem SameHead.trunc {a b : Bytes} (h : SameHead a b) : SameHead (a.take 255) (b.take 255) := by
  have hf : (a.take 255).headD 0 = a.headD 0 := headD_take (by omega)
  have hc : (a.take 255).getD 5 0 = a.getD 5 0 := getD_take (by omega)
  have hk : rxCut 4 (a.take 255) = rxCut 4 a := by
    unfold rxCut; rw [hc, List.length_take]
    have : (a.getD 5 0).toNat % 16 < 16 := Nat.mod_lt _ (by omega)
    split <;> split <;> omega
  refine ⟨?_, by simp [h.len], ?_⟩
  · have := h.typed; unfold RxTyped at *; rwa [hf]
  · rw [hk, List.take_take, List.take_take, Nat.min_eq_left (by have := h.cut_le; omega), h.head]

/-- The signed part of the frames, with the message blanked. -/
theorem SameHead.signed {a b : Bytes} (h : SameHead a b) (hl : 12 + (a.getD 5 0).toNat % 16 ≤ a.length) :
    sealRx 0 (a.take (a.length - 4)) = sealRx 0 (b.take (b.length - 4)) := by
  have hf : ∀ l : Bytes, 12 ≤ l.length → (l.take (l.length - 4)).headD 0 = l.headD 0 := fun l hl => headD_take (by omega)
  have hc : ∀ l : Bytes, 12 ≤ l.length → (l.take (l.length - 4)).getD 5 0 = l.getD 5 0 := fun l hl => getD_take (by omega)
  have hb := h.len
  have hk : ∀ l : Bytes, 12 + (l.getD 5 0).toNat % 16 ≤ l.length → rxCut 0 (l.take (l.length - 4)) = rxCut 4 l := fun l hl => by
    unfold rxCut; rw [hc l (by omega), List.length_take]
    split <;> split <;> omega
  have ha : RxTyped (a.take (a.length - 4)) := by have := h.typed; unfold RxTyped at *; rwa [hf a (by omega)]
  have hb2 : RxTyped (b.take (b.length - 4)) := by have := h.typed2; unfold RxTyped at *; rwa [hf b (by omega)]
  rw [sealRx_typed ha, sealRx_typed hb2, hk a hl, hk b (by rw [← h.ctrl, ← h.len]; exact hl), h.cut]
  have hle : rxCut 4 a ≤ a.length - 4 := by unfold rxCut; split <;> omega
  rw [List.take_take, List.take_take, Nat.min_eq_left hle, Nat.min_eq_left (by omega), h.head]
  simp [h.len]


/-! ### The two parsers -/

/-- Two headers of frames that start alike. -/
structure SameHdr (H G : DHdr) : Prop where
  mhdr : H.mhdr = G.mhdr
  a0 : H.a0 = G.a0
  a1 : H.a1 = G.a1
  a2 : H.a2 = G.a2
  a3 : H.a3 = G.a3
  fctrl : H.fctrl = G.fctrl
  c0 : H.c0 = G.c0
  c1 : H.c1 = G.c1

theorem SameHead.hdr {H G : DHdr} (h : SameHead H.bytes G.bytes) : SameHdr H G := by
  have := h.eight
  simp only [DHdr.bytes, List.take_succ_cons, List.take_zero, List.cons.injEq, and_true] at this
  obtain ⟨h0, h1, h2, h3, h4, h5, h6, h7⟩ := this
  exact ⟨h0, h1, h2, h3, h4, h5, h6, h7⟩

theorem SameHdr.fo {H G : DHdr} (h : SameHdr H G) : H.fo = G.fo := by unfold DHdr.fo; rw [h.fctrl]
theorem SameHdr.addr {H G : DHdr} (h : SameHdr H G) : H.addr = G.addr := by unfold DHdr.addr; rw [h.a0, h.a1, h.a2, h.a3]
theorem SameHdr.fcnt {H G : DHdr} (h : SameHdr H G) : H.fcnt = G.fcnt := by unfold DHdr.fcnt; rw [h.c0, h.c1]
theorem SameHdr.mtype {H G : DHdr} (h : SameHdr H G) : H.mtype = G.mtype := by unfold DHdr.mtype; rw [h.mhdr]
theorem SameHdr.mark {H G : DHdr} (h : SameHdr H G) (s : St) : H.mark s = G.mark s := by unfold DHdr.mark; rw [h.mtype]
theorem SameHdr.count {H G : DHdr} (h : SameHdr H G) (s : St) (d : U32) (n : BitVec 8) : H.count s d n = G.count s d n := by
  unfold DHdr.count; rw [h.mark]

theorem DHdr.ctrl (H : DHdr) : (H.bytes.getD 5 0).toNat % 16 = H.fo := H.fo_eq.symm

theorem SameHead.rest {H G : DHdr} (h : SameHead H.bytes G.bytes) : H.rest.length = G.rest.length := by
  have := h.len
  simpa [DHdr.bytes] using this

theorem SameHead.restTake {H G : DHdr} (h : SameHead H.bytes G.bytes) {n : Nat} (hn : 8 + n ≤ rxCut 4 H.bytes) :
    H.rest.take n = G.rest.take n := by
  have := congrArg (fun l => (l.take (8 + n)).drop 8) h.head
  simp only [List.take_take, Nat.min_eq_left hn] at this
  rw [show 8 + n = n + 8 by omega] at this
  simpa only [DHdr.bytes, List.take_succ_cons, List.drop_succ_cons, List.drop_zero] using this

theorem SameHead.fopts {H G : DHdr} (h : SameHead H.bytes G.bytes) : H.fopts = G.fopts := by
  unfold DHdr.fopts
  rw [← h.hdr.fo]
  refine h.restTake ?_
  unfold rxCut; rw [H.ctrl]
  split <;> omega

theorem SameHead.tailLen {H G : DHdr} (h : SameHead H.bytes G.bytes) : H.tail.length = G.tail.length := by
  simp [DHdr.tail, h.rest, h.hdr.fo]

theorem SameHead.tailHead {H G : DHdr} (h : SameHead H.bytes G.bytes) : H.tail.head? = G.tail.head? := by
  have hr := h.rest
  unfold DHdr.tail
  rw [← h.hdr.fo, ← hr]
  by_cases c : H.rest.length - 4 - H.fo = 0
  · rw [c]; rfl
  · have hb : H.bytes.length = 8 + H.rest.length := by simp [DHdr.bytes]; omega
    have := h.restTake (n := H.fo + 1) (by unfold rxCut; rw [H.ctrl, if_pos (by omega)]; omega)
    have := congrArg (fun l => l.drop H.fo) this
    simp only [List.drop_take, show H.fo + 1 - H.fo = 1 by omega] at this
    have key : ∀ l : Bytes, (l.take (H.rest.length - 4 - H.fo)).head? = (l.take 1).head? := fun l => by
      rw [List.head?_take, List.head?_take, if_neg c]; simp
    rw [key, key, this]

theorem SameHead.port {H G : DHdr} (h : SameHead H.bytes G.bytes) (p : Byte) : H.port p = G.port p := by
  unfold DHdr.port; rw [h.tailHead]

theorem SameHead.key {H G : DHdr} (h : SameHead H.bytes G.bytes) (ss : Session) : H.key ss = G.key ss := by
  unfold DHdr.key; rw [h.tailHead]

theorem encryptPayload_ev {ss : Session} {a b : Bytes} {key : Block} {dir : Byte} (h : a.length = b.length) :
    (encryptPayload E ss a key dir).2 = (encryptPayload E ss b key dir).2 := by
  unfold encryptPayload
  simp only
  rw [h, encLoop_ev _ _ _ _ _ _ a b h]

theorem SameHead.plain {H G : DHdr} (h : SameHead H.bytes G.bytes) (ss : Session) (d : U32) :
    (H.plain E ss d).2 = (G.plain E ss d).2 ∧
    (H.plain E ss d).1.map (fun d => List.replicate d.length (0 : Byte)) =
      (G.plain E ss d).1.map (fun d => List.replicate d.length (0 : Byte)) := by
  have hl := h.tailLen
  unfold DHdr.plain
  rw [h.key]
  cases hH : H.tail with
  | nil =>
    cases hG : G.tail with
    | nil => exact ⟨rfl, rfl⟩
    | cons => simp [hH, hG] at hl
  | cons a l =>
    cases hG : G.tail with
    | nil => simp [hH, hG] at hl
    | cons a2 l2 =>
      simp only [hH, hG, List.length_cons, Nat.succ.injEq] at hl
      cases l with
      | nil =>
        cases l2 with
        | nil => exact ⟨rfl, rfl⟩
        | cons => simp at hl
      | cons b l =>
        cases l2 with
        | nil => simp at hl
        | cons b2 l2 =>
          refine ⟨encryptPayload_ev hl, ?_⟩
          simp [encryptPayload_length, hl] at *

theorem SameHead.mic {H G : DHdr} (h : SameHead H.bytes G.bytes) (hf : 12 + H.fo ≤ H.bytes.length) (ss : Session) (d : U32) :
    (H.mic E ss d).2.map sealRxEv = (G.mic E ss d).2.map sealRxEv := by
  unfold DHdr.mic calcMic
  simp only [List.map_cons, sealRxEv, List.map_nil, ↓reduceIte, List.cons_append, List.nil_append]
  rw [h.signed (by rw [H.ctrl]; exact hf), List.length_take, List.length_take, h.len]

/-- The same parser on two packets that start alike, with the same verdict. -/
theorem DataCase.alike {bat : Nat → Byte} {s s1 s2 : St} {a b g : Bytes} {rs : BitVec 16} {sn : BitVec 8} {e : Err} {p1 p2 : DlPkt}
    {ev1 ev2 : List Ev} (h : SameHead a b) (hs : s.frame.length = 255) (hg : g.length = 255)
    (hx : DataCase E bat s ⟨some a, 0, rs, sn⟩ a e s1 p1 ev1)
    (hy : DataCase E bat (put g s.pp s) ⟨some b, 0, rs, sn⟩ b e s2 p2 ev2) :
    (∃ f, f.length = 255 ∧ s1.frame.length = 255 ∧ s1.pp = s.pp ∧ s2 = put f s1.pp s1) ∧ ev1.map sealRxEv = ev2.map sealRxEv ∧
    ∀ m, sealRxEv (.downlink e m p1) = sealRxEv (.downlink e m p2) := by
  have hm : ∀ H : DHdr, (H.mark s).frame = s.frame ∧ (H.mark s).pp = s.pp ∧
      H.mark (put g s.pp s) = put g s.pp (H.mark s) := fun H => by
    unfold DHdr.mark markAck; split <;> exact ⟨rfl, rfl, rfl⟩
  have ht : ∀ (e : Err), e ≠ .no → ∀ (m port : Byte), sealRxEv (.downlink e m ⟨some a, port, rs, sn⟩) = sealRxEv (.downlink e m ⟨some b, port, rs, sn⟩) := by
    intro e he m port
    cases e <;> first | exact absurd rfl he | (simp only [sealRxEv, Option.map_some, h.seal])
  cases hx with
  | short _ =>
    cases hy with
    | short => exact ⟨⟨g, hg, hs, rfl, rfl⟩, rfl, fun m => ht _ (by simp) m 0⟩
    | fopts G hb hl => exact absurd hl (by rw [← h.len]; omega)
  | mhdr H hb hl _ =>
    cases hy with
    | mhdr G hb' => exact ⟨⟨g, hg, hs, rfl, rfl⟩, rfl, fun m => ht _ (by simp) m 0⟩
  | addr H hb hl _ _ =>
    cases hy with
    | addr G hb' =>
      subst hb hb'
      obtain ⟨m1, m2, m3⟩ := hm H
      refine ⟨⟨g, hg, m1 ▸ hs, m2, ?_⟩, by rw [h.hdr.a3], fun m => ht _ (by simp) m 0⟩
      rw [← h.hdr.mark, m3, m2]
  | fopts H hb hl _ _ _ =>
    cases hy with
    | short hc => exact absurd hl (by rw [h.len]; omega)
    | fopts G hb' =>
      subst hb hb'
      obtain ⟨m1, m2, m3⟩ := hm H
      refine ⟨⟨g, hg, m1 ▸ hs, m2, ?_⟩, by rw [h.hdr.a3], fun m => ht _ (by simp) m 0⟩
      rw [← h.hdr.mark, m3, m2]
  | fcnt H hb hl _ _ _ _ =>
    cases hy with
    | fcnt G hb' =>
      subst hb hb'
      obtain ⟨m1, m2, m3⟩ := hm H
      refine ⟨⟨g, hg, m1 ▸ hs, m2, ?_⟩, by rw [h.hdr.a3], fun m => ht _ (by simp) m 0⟩
      rw [← h.hdr.mark, m3, m2]
  | mic H d t ev1 hb hl _ _ hf hd hc _ _ _ =>
    cases hy with
    | mic G d' t' ev1' hb' hl' _ _ hf' hd' hc' _ _ _ =>
      subst hb hb'
      obtain ⟨m1, m2, m3⟩ := hm H
      have hdd : d = d' := by
        rw [← h.hdr.fcnt] at hd'
        exact Option.some.inj (hd.symm.trans hd')
      subst hdd
      have hcnt : G.count (put g s.pp s) d sn = put g s.pp (H.count s d sn) := by
        rw [← h.hdr.count]; unfold DHdr.count; rw [m3]; rfl
      simp only at hc hc'
      rw [hcnt, ← h.fopts] at hc'
      have k := put_loop (f := g) (p := s.pp) bat _ hc
      have := k.symm.trans hc'
      simp only [Except.ok.injEq, Prod.mk.injEq] at this
      obtain ⟨rfl, rfl⟩ := this
      obtain ⟨f1, f2⟩ := loop_frame hc
      have f1 : s1.frame = s.frame := f1.trans m1
      have f2 : s1.pp = s.pp := f2.trans m2
      refine ⟨⟨g, hg, by rw [f1]; exact hs, f2, by rw [f2]⟩, ?_, ?_⟩
      · simp only [List.map_append, h.hdr.a3]
        rw [h.mic hf]
        rfl
      · intro m
        simp only [← h.port]
        exact ht _ (by simp) m _
  | good H d t ev1 fr hb hl _ _ hf hd hc _ _ _ hlen =>
    cases hy with
    | good G d' t' ev1' fr' hb' hl' _ _ hf' hd' hc' _ _ _ hlen' =>
      subst hb hb'
      obtain ⟨m1, m2, m3⟩ := hm H
      have hdd : d = d' := by
        rw [← h.hdr.fcnt] at hd'
        exact Option.some.inj (hd.symm.trans hd')
      subst hdd
      have hcnt : G.count (put g s.pp s) d sn = put g s.pp (H.count s d sn) := by
        rw [← h.hdr.count]; unfold DHdr.count; rw [m3]; rfl
      simp only at hc hc'
      rw [hcnt, ← h.fopts] at hc'
      have k := put_loop (f := g) (p := s.pp) bat _ hc
      have := k.symm.trans hc'
      simp only [Except.ok.injEq, Prod.mk.injEq] at this
      obtain ⟨rfl, rfl⟩ := this
      obtain ⟨f1, f2⟩ := loop_frame hc
      have f2 : t.pp = s.pp := f2.trans m2
      refine ⟨⟨fr', hlen', hlen, f2, ?_⟩, ?_, ?_⟩
      · show adrHandleDownlink { put g s.pp t with frame := fr' } = put fr' t.pp (adrHandleDownlink { t with frame := fr })
        rw [← f2]; rfl
      · simp only [List.map_append, h.hdr.a3]
        rw [h.mic hf, show (put g s.pp s).session = s.session from rfl, (h.plain s.session d).1]
      · intro m
        simp only [← h.port, sealRxEv]
        rw [show (put g s.pp s).session = s.session from rfl, (h.plain s.session d).2]

/-! ### The two devices -/

theorem rxMtype_head {o : Oracle} {s : St} {b : Bytes} (h : SameHead o.rxData b) : rxMtype { o with rxData := b } s = rxMtype o s := by
  have hf := h.first
  have hl := h.len
  unfold rxMtype rxSt
  simp only
  cases ha : o.rxData with
  | nil =>
    rw [ha] at hl
    cases b with
    | nil => rfl
    | cons => simp at hl
  | cons x l =>
    cases b with
    | nil => rw [ha] at hl; simp at hl
    | cons y m =>
      rw [ha] at hf
      simp only [List.headD_cons] at hf
      simp [hf]

theorem DlCase.alike {o : Oracle} {s s1 s2 : St} {err : Err} {b : Bytes} {ev1 ev2 : List Ev} (h : SameHead o.rxData b)
    (hs : s.frame.length = 255) (hx : DlCase E o s err s1 ev1) (hy : DlCase E { o with rxData := b } s err s2 ev2)
    (hr : report ev1 = report ev2) :
    (∃ f, f.length = 255 ∧ s1.frame.length = 255 ∧ s2 = put f s1.pp s1) ∧ ev1.map sealRxEv = ev2.map sealRxEv := by
  have hfr : rxSt { o with rxData := b } s = put (rxSt { o with rxData := b } s).frame (rxSt o s).pp (rxSt o s) := rfl
  have hg := rxSt_frame { o with rxData := b } hs
  have hm := rxMtype_head (s := s) h
  cases hx with
  | none c =>
    cases hy with
    | none _ => exact ⟨⟨s.frame, hs, hs, rfl⟩, rfl⟩
    | join _ _ _ _ k => exact absurd k c
    | data _ _ _ _ k => exact absurd k c
  | join e t p ev k j hc =>
    cases hy with
    | none c => exact absurd k c
    | data _ _ _ _ _ j' => rw [j] at j'; cases j'
    | join e' t' p' ev' _ _ hc' =>
      have ht := h.trunc
      have hne : ∀ (x : Bytes) (blks : List Block), RxTyped x → x ≠ 0x20 :: blks.flatMap (·.toList) := by
        rintro x blks hx rfl
        simp [RxTyped] at hx
      have hseal : ∀ (e : Err), e ≠ .no → ∀ m, sealRxEv (.downlink e m (rxPkt o)) =
          sealRxEv (.downlink e m (rxPkt { o with rxData := b })) := by
        intro e he m
        cases e <;> first | exact absurd rfl he | (simp only [sealRxEv, rxPkt, Option.map_some, ht.seal])
      have hlen : ({ o with rxData := b } : Oracle).rxData.take 255 = b.take 255 := rfl
      cases hc with
      | mic blks fr hb => exact absurd hb (hne _ blks ht.typed)
      | good blks fr J c hb => exact absurd hb (hne _ blks ht.typed)
      | len hl =>
        cases hc' with
        | mic blks fr hb => exact absurd hb (hne _ blks ht.typed2)
        | good blks fr J c hb => exact absurd hb (hne _ blks ht.typed2)
        | len =>
          refine ⟨⟨_, hg, rxSt_frame o hs, rfl⟩, ?_⟩
          simp only [List.map_append, List.map_cons, List.map_nil, List.append_nil, hm, hseal _ (by simp : Err.msgLen ≠ .no)]
        | mhdr m body hb hl' => rw [hlen, ← ht.len] at hl'; omega
      | mhdr m body hb hl =>
        cases hc' with
        | mic blks fr hb => exact absurd hb (hne _ blks ht.typed2)
        | good blks fr J c hb => exact absurd hb (hne _ blks ht.typed2)
        | len hl' => rw [hlen, ← ht.len] at hl'; omega
        | mhdr =>
          refine ⟨⟨_, hg, rxSt_frame o hs, rfl⟩, ?_⟩
          simp only [List.map_append, List.map_cons, List.map_nil, List.append_nil, hm, hseal _ (by simp : Err.msgMhdr ≠ .no)]
  | data e t p ev k j hc =>
    cases hy with
    | none c => exact absurd k c
    | join _ _ _ _ _ j' => rw [j] at j'; cases j'
    | data e' t' p' ev' _ _ hc' =>
      rw [report_shape (.inr rfl) hc.quiet, report_shape (.inr rfl) hc'.quiet] at hr
      cases hr
      rw [hfr] at hc'
      obtain ⟨⟨f, k1, k2, k3, rfl⟩, k4, k5⟩ := DataCase.alike h.trunc (rxSt_frame o hs) hg hc hc'
      refine ⟨⟨f, k1, k2, rfl⟩, ?_⟩
      simp only [List.map_append, List.map_cons, List.map_nil, hm, k4, k5]

/-- The same event with two packets that start alike, with the same verdict. -/
theorem event_alike {o : Oracle} {m : Byte} {s s1 s2 : St} {b : Bytes} {r1 r2 : Ret} {ev1 ev2 : List Ev} (hi : Inv s)
    (h : SameHead o.rxData b) (h1 : step E s (.event m o) = .ok (r1, s1, ev1))
    (h2 : step E s (.event m { o with rxData := b }) = .ok (r2, s2, ev2)) (hr : report ev1 = report ev2) :
    r1 = r2 ∧ Sealed s1 s2 ∧ ev1.map sealRxEv = ev2.map sealRxEv := by
  have hret : r1 = r2 := by
    simp only [step, bind, Except.bind] at h1 h2
    split at h1 <;> split at h2 <;> simp_all
  have hh : o.rxData.head? = b.head? := by
    have hf := h.first
    have hl := h.len
    cases ha : o.rxData <;> cases b <;> simp_all
  have fin : (Like s1 s2 ∧ ev1.map sealRxEv = ev2.map sealRxEv) → r1 = r2 ∧ Sealed s1 s2 ∧ ev1.map sealRxEv = ev2.map sealRxEv := by
    rintro ⟨k1, k2⟩
    refine ⟨hret, ⟨k1, ?_⟩, k2⟩
    have hmem : ∀ l : List Ev, (Ev.readPacket ∈ l.map sealRxEv) ↔ Ev.readPacket ∈ l := by
      intro l
      rw [List.mem_map]
      constructor
      · rintro ⟨x, hx, e⟩
        cases x with
        | downlink e' => cases e' <;> simp [sealRxEv] at e
        | readPacket => exact hx
        | _ => simp [sealRxEv] at e
      · exact fun hx => ⟨_, hx, rfl⟩
    rw [step_head hi h1, step_head hi h2]
    have he : (Ev.readPacket ∈ ev1) ↔ (Ev.readPacket ∈ ev2) := by rw [← hmem, k2, hmem]
    simp only [leadNext, hh, he]
  apply fin
  have hs := hi.frame
  have dl : ∀ {err : Err} {ea eb : List Ev}, (s.phase = .rx1 ∨ s.phase = .rx2) → DlCase E o { s with phase := .idle } err s1 ea →
      DlCase E { o with rxData := b } { s with phase := .idle } err s2 eb → report ea = report eb →
      Like s1 s2 ∧ ea.map sealRxEv = eb.map sealRxEv := by
    intro err ea eb _ c1 c2 hr
    obtain ⟨⟨f, k1, k2, k3⟩, k4⟩ := DlCase.alike h (by exact hs) c1 c2 hr
    exact ⟨k3 ▸ .mk' (by rw [k1, k2]) (fun _ => .refl _) (fun _ => rfl), k4⟩
  have keep : Like s s := ⟨rfl, rfl, fun _ => .refl _, fun _ => rfl⟩
  cases step_event hi h1 with
  | ignore c =>
    cases step_event hi h2 with
    | ignore => exact ⟨keep, rfl⟩
    | _ => simp_all
  | txDone mc e2 hp hm hmac =>
    cases step_event hi h2 with
    | txDone mc' e2' _ _ hmac' =>
      have := hmac.symm.trans hmac'
      simp only [Except.ok.injEq, Prod.mk.injEq] at this
      obtain ⟨rfl, rfl⟩ := this
      exact ⟨⟨rfl, rfl, fun _ => .refl _, fun _ => rfl⟩, rfl⟩
    | _ => simp_all
  | rx1Timeout d hp hm hd =>
    cases step_event hi h2 with
    | rx1Timeout d' _ _ hd' =>
      cases hd.symm.trans hd'
      exact ⟨⟨rfl, rfl, fun _ => .refl _, fun _ => rfl⟩, rfl⟩
    | _ => simp_all
  | rx1Done _ ev hp _ hm hc =>
    cases step_event hi h2 with
    | rx1Done _ ev' _ _ _ hc' =>
      obtain ⟨k1, k2⟩ := dl (.inl hp) hc hc' hr
      exact ⟨k1, by rw [List.map_cons, List.map_cons, k2]⟩
    | _ => simp_all
  | rx2Timeout _ _ hp hm hc =>
    cases step_event hi h2 with
    | rx2Timeout _ _ _ _ hc' => exact dl (.inr hp) hc hc' hr
    | _ => simp_all
  | rx2Done _ ev hp _ hm hc =>
    cases step_event hi h2 with
    | rx2Done _ ev' _ _ _ hc' => exact dl (.inr hp) hc hc' hr
    | _ => simp_all

theorem hist_alike {log1 log2 : List Item} {s1 s2 : St} (h1 : Hist E log1 s1) (h2 : Hist E log2 s2)
    (ho : log1.map sealRxIn = log2.map sealRxIn) :
    log1.map sealRxItem = log2.map sealRxItem ∧ (∀ p ∈ log1.zip log2, p.1.op = p.2.op → p.1.ev = p.2.ev) ∧ Sealed s1 s2 := by
  induction h1 generalizing log2 s2 with
  | nil =>
    have : log2 = [] := by simpa using ho.symm
    subst this
    cases Hist.unique h2 .nil
    exact ⟨rfl, by simp, ⟨rfl, rfl, fun _ => .refl _, fun _ => rfl⟩, rfl⟩
  | @snoc l1 sa sb op r ev g hv hs ih =>
    cases h2 with
    | nil => simp at ho
    | @snoc l2 ta tb op2 r2 ev2 g2 hv2 hs2 =>
      rw [List.map_append, List.map_append, List.map_cons, List.map_nil, List.map_cons, List.map_nil] at ho
      obtain ⟨ho1, ho2⟩ := List.append_inj' ho rfl
      obtain ⟨i1, i2, i3⟩ := ih g2 ho1
      simp only [sealRxIn, List.cons.injEq, Prod.mk.injEq, and_true] at ho2
      obtain ⟨hop, hrep⟩ := ho2
      obtain ⟨t, k1, k2⟩ := step_sealed_same (Hist.inv g) i3 hs
      have key : r = r2 ∧ Sealed t s2 ∧ ev.map sealRxEv = ev2.map sealRxEv ∧ (op = op2 → ev = ev2) := by
        by_cases he : op = op2
        · subst he
          cases k1.symm.trans hs2
          exact ⟨rfl, ⟨⟨rfl, rfl, fun _ => .refl _, fun _ => rfl⟩, rfl⟩, rfl, fun _ => rfl⟩
        · cases op with
          | event m o =>
            cases op2 with
            | event m2 o2 =>
              simp only [sealRxOp, Op.event.injEq, Oracle.mk.injEq] at hop
              obtain ⟨rfl, hx, q1, q2, q3, q4⟩ := hop
              have e2 : o2 = { o with rxData := o2.rxData } := by cases o; cases o2; simp_all
              rcases sealRx_cases hx with hx | hx
              · exact absurd (by rw [e2, ← hx]) he
              · rw [e2] at hs2
                obtain ⟨j1, j2, j3⟩ := event_alike (Hist.inv g2) hx k1 hs2 hrep
                exact ⟨j1, j2, j3, fun e => absurd e he⟩
            | _ => simp [sealRxOp] at hop
          | _ =>
            cases op2 with
            | event => simp [sealRxOp] at hop
            | _ => exact absurd hop he
      obtain ⟨rfl, j2, j3, j4⟩ := key
      have hl : l1.length = l2.length := by simpa using congrArg List.length ho1
      refine ⟨?_, ?_, ⟨k2.like.trans j2.like, j2.head.trans k2.head⟩⟩
      · rw [List.map_append, List.map_append, i1]
        simp only [List.map_cons, List.map_nil, sealRxItem, hop, j3]
      · rw [List.zip_append hl]
        intro p hp
        rcases List.mem_append.1 hp with hp | hp
        · exact i2 p hp
        · simp only [List.zip_cons_cons, List.zip_nil_left, List.mem_singleton] at hp
          subst hp
          exact j4

end Uwan
