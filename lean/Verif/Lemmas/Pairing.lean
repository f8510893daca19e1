import Verif.Lemmas.ClientInv
import Verif.Spec.Telegrams

/-!
# Lemmas: indications, sequence numbers and channels of requests
-/

namespace Knx
open Spec

/-- The decoded indication is the one the specification speaks of. -/
theorem indication_iff {c : Cemi} {dest : U16} {v : Bytes} :
    IndicationFor dest c v ↔
      c.msgCode = codeLDataInd ∧ ∃ i, LDataInd.fromCemi c = .ok i ∧ i.lData.dest = dest ∧ i.value = v := by
  have low : ∀ b : U8, [b &&& 0x3f#8] = [byte (b.toNat % 64)] := by decide +kernel
  constructor
  · rintro ⟨h1, c1, c2, s1, s2, d1, d2, l, a, b, rest, h2, h3, rfl⟩
    refine ⟨h1, _, lDataInd_eval c c1 c2 s1 s2 d1 d2 l a b rest (by simpa using h2), ?_, ?_⟩
    · exact (eq_ofBe16_iff.2 h3.symm).symm
    · simp only [low]
  · rintro ⟨h1, i, h2, h3, h4⟩
    have h9 := (C14_lDataInd_total c).2.1.1 ⟨i, h2⟩
    match hs : c.serviceInfo with
    | [] | [_] | [_, _] | [_, _, _] | [_, _, _, _] | [_, _, _, _, _] | [_, _, _, _, _, _]
    | [_, _, _, _, _, _, _] | [_, _, _, _, _, _, _, _] => rw [hs] at h9; simp at h9
    | c1 :: c2 :: s1 :: s2 :: d1 :: d2 :: l :: a :: b :: rest =>
      have he := lDataInd_eval c c1 c2 s1 s2 d1 d2 l a b rest hs
      rw [he] at h2
      cases h2
      refine ⟨h1, c1, c2, s1, s2, d1, d2, l, a, b, rest, by simpa using hs, ?_, ?_⟩
      · rw [← h3]; exact (word_ofBe16 d1 d2).symm
      · rw [← h4]; simp only [low]

theorem skipped_iff {a : U16} {c : Cemi} (h : Skipped a c) : ∀ v, ¬ IndicationFor a c v := by
  intro v hv
  obtain ⟨h1, i, h2, h3, _⟩ := indication_iff.1 hv
  rcases h with h | ⟨i', hi', hd⟩
  · exact h h1
  · rw [h2] at hi'; cases hi'; exact hd h3

theorem requestPacket_of {m : Mode} {ch sq : U8} {cemi p : Bytes}
    (h : (TunnelingRequest.mk ch sq cemi).packet m = .ok p) : RequestPacket ch sq cemi p := by
  unfold TunnelingRequest.packet at h
  split at h
  · rename_i w _
    cases h
    refine ⟨w.toNat, ?_⟩
    rw [header, ← be16_eq_word]
    rfl
  · cases h
  · cases h

theorem serviceIs_request {ch sq : U8} {cemi p : Bytes} (h : RequestPacket ch sq cemi p) :
    serviceIs TUNNELING_REQUEST p = true := by
  obtain ⟨len, rfl⟩ := h
  simp [serviceIs, header, word]

theorem PairedUpTo.mono {tr o : List Obs} {p : Bytes} (h : PairedUpTo tr p) (h1 : o.any isDrew = false)
    (h2 : drawn o = []) : PairedUpTo (tr ++ o) p := by
  obtain ⟨r, n, cemi, e1, e2, e3⟩ := h
  refine ⟨r, n, cemi, e1, ?_, ?_⟩
  · rw [drawn_append, h2, List.append_nil]; exact e2
  · rw [upto_append _ _ _ h1, since_task _ h1]
    rcases e3 with e3 | e3
    · exact Or.inl e3
    · exact Or.inr (List.mem_append_left _ e3)

theorem mem_of_ups {r : ConnectionResponse} {tr : List Obs} (h : r ∈ ups tr) : Obs.up r ∈ tr := by
  rw [ups, List.mem_filterMap] at h
  obtain ⟨x, hx, hxr⟩ := h
  cases x <;> simp at hxr
  subst hxr; exact hx

/-- The channel looked up now belongs to the connection the last sequence number was drawn from or to a later one. -/
theorem GExec.pairing {k : Kind} {m : Mode} {s : Bg} {tr : List Obs} {d : Conn} (h : GExec k m s tr) (hc : s.conn = some d) :
    ∃ r, d.channel = r.channel ∧ (lastUp (upto isDrew tr) = some r ∨ Obs.up r ∈ since isDrew tr) := by
  obtain ⟨r, h1, h2, _⟩ := h.grants.2.2 d hc
  refine ⟨r, h2, ?_⟩
  have e := upto_since isDrew tr
  rw [lastUp, ← e, ups_append] at h1
  cases hu : ups (since isDrew tr) with
  | nil => rw [hu, List.append_nil] at h1; exact Or.inl h1
  | cons x xs =>
    right
    apply mem_of_ups
    rw [hu] at h1 ⊢
    rw [List.getLast?_append_of_ne_nil _ (by simp)] at h1
    exact List.mem_of_getLast? h1

theorem GExec.pairedUpTo {k : Kind} {m : Mode} {s : Bg} {tr : List Obs} {d : Conn} {n : U8} {cemi p : Bytes}
    (h : GExec k m s tr) (hc : s.conn = some d) (hn : (drawn tr).getLast? = some n)
    (hp : (TunnelingRequest.mk d.channel n cemi).packet m = .ok p) : PairedUpTo tr p := by
  obtain ⟨r, h1, h2⟩ := h.pairing hc
  exact ⟨r, n, cemi, h1 ▸ requestPacket_of hp, hn, h2⟩

/-- The sequence numbers of the requests sent so far are, in order, among the numbers drawn; `fresh` is the number drawn for the
request in preparation, if any. -/
def Numbered (fresh : Option U8) (tr : List Obs) : Prop :=
  ∃ ns ds, drawn tr = ds ++ fresh.toList ∧ ns.Sublist ds ∧
    List.Forall₂ (fun p n => ∃ ch cemi, RequestPacket ch n cemi p) (requestsSent tr) ns

theorem Numbered.mono {f : Option U8} {tr o : List Obs} (h : Numbered f tr) (h1 : drawn o = []) (h2 : requestsSent o = []) :
    Numbered f (tr ++ o) := by
  obtain ⟨ns, ds, e1, e2, e3⟩ := h
  refine ⟨ns, ds, by rw [drawn_append, h1, List.append_nil, e1], e2, ?_⟩
  have : requestsSent (tr ++ o) = requestsSent tr := by
    rw [requestsSent, apiSent_append, List.filter_append]
    rw [requestsSent] at h2
    rw [h2, List.append_nil]; rfl
  rwa [this]

theorem Numbered.drop {f : Option U8} {tr : List Obs} (h : Numbered f tr) : Numbered none tr := by
  obtain ⟨ns, ds, e1, e2, e3⟩ := h
  exact ⟨ns, ds ++ f.toList, by simpa using e1, e2.trans (List.sublist_append_left _ _), e3⟩

theorem Numbered.draw {tr : List Obs} (h : Numbered none tr) (n : U8) : Numbered (some n) (tr ++ [.drew n]) := by
  obtain ⟨ns, ds, e1, e2, e3⟩ := h
  refine ⟨ns, ds, ?_, e2, ?_⟩
  · rw [drawn_append, e1]; simp [drawn]
  · have : requestsSent (tr ++ [.drew n]) = requestsSent tr := by
      rw [requestsSent, apiSent_append, List.filter_append]; simp [apiSent, requestsSent]
    rwa [this]

theorem Numbered.send {n : U8} {tr : List Obs} {p : Bytes} (h : Numbered (some n) tr)
    (hp : ∃ ch cemi, RequestPacket ch n cemi p) : Numbered none (tr ++ [.tx .api p]) := by
  obtain ⟨ns, ds, e1, e2, e3⟩ := h
  refine ⟨ns ++ [n], ds ++ [n], ?_, e2.append (List.Sublist.refl _), ?_⟩
  · rw [drawn_append, e1]; simp [drawn]
  · obtain ⟨ch, cemi, hq⟩ := hp
    have : requestsSent (tr ++ [.tx .api p]) = requestsSent tr ++ [p] := by
      rw [requestsSent, apiSent_append, List.filter_append]
      simp [apiSent, requestsSent, serviceIs_request hq]
    rw [this]
    exact Forall₂.snoc e3 ⟨ch, cemi, hq⟩

/-- The request a call of the client has in preparation. -/
def RequestInv (m : Mode) (api : Api) (tr : List Obs) : Prop :=
  match api with
  | .chanId _ n _ => (drawn tr).getLast? = some n ∧ Numbered (some n) tr
  | .sendReq _ p => PairedUpTo tr p ∧ ∃ n ch cemi, RequestPacket ch n cemi p ∧ Numbered (some n) tr
  | _ => Numbered none tr

theorem RequestInv.numbered {m : Mode} {api : Api} {tr : List Obs} (h : RequestInv m api tr) : Numbered none tr := by
  cases api
  case chanId => exact h.2.drop
  case sendReq => obtain ⟨_, n, _, _, _, hn⟩ := h; exact hn.drop
  all_goals exact h

theorem requestsSent_nil {o : List Obs} (h : apiSent o = []) : requestsSent o = [] := by rw [requestsSent, h]; rfl

theorem RequestInv.task {m : Mode} {api : Api} {tr o : List Obs} (h : RequestInv m api tr) (f : TaskFacts o) :
    RequestInv m api (tr ++ o) := by
  have hm : ∀ {x}, Numbered x tr → Numbered x (tr ++ o) := fun hx => hx.mono f.drawn (requestsSent_nil f.sent)
  cases api
  case chanId => exact ⟨by rw [drawn_append, f.drawn, List.append_nil]; exact h.1, hm h.2⟩
  case sendReq =>
    obtain ⟨h1, n, ch, cemi, h2, h3⟩ := h
    exact ⟨PairedUpTo.mono h1 f.noDrew f.drawn, n, ch, cemi, h2, hm h3⟩
  all_goals exact hm h

theorem stateReq_not_request (c : ConnectionstateRequest) : serviceIs TUNNELING_REQUEST c.packet = false := by
  rw [C19_bodies.1, serviceIs_frame]; decide

theorem discReq_not_request (c : DisconnectRequest) : serviceIs TUNNELING_REQUEST c.packet = false := by
  rw [C19_bodies.2.1, serviceIs_frame]; decide

theorem Exec.requestInv {m : Mode} {s : Sys} {tr : List Obs} (h : Exec m s tr) : RequestInv m s.api tr := by
  induction h with
  | init => exact ⟨[], [], rfl, .slnil, .nil⟩
  | @step s s' tr o e hx hs ih =>
    cases e with
    | bg e =>
      simp only [Knx.step, Option.map_eq_some_iff, Prod.exists, Prod.mk.injEq] at hs
      obtain ⟨b, o', hb, rfl, rfl⟩ := hs
      exact ih.task (bgStep_tr hb).facts
    | delay d => cases hs; exact ih.task TaskFacts.nil
    | api e =>
      have hn := ih.numbered
      have hci := hx.callInv
      have := apiStep_tr hs
      cases this
      case draw c cemi d h1 h2 h3 =>
        exact ⟨by rw [drawn_append]; simp [drawn], hn.draw _⟩
      case pick c n cemi d p h1 h2 h3 h4 =>
        rw [h1] at ih
        rw [List.append_nil]
        exact ⟨hx.gexec.pairedUpTo h3 ih.1 h4, n, _, _, requestPacket_of h4, ih.2⟩
      case sendRead addr p h1 =>
        rw [h1] at ih
        obtain ⟨_, n, ch, cemi, h2, h3⟩ := ih
        exact h3.send ⟨ch, cemi, h2⟩
      case sendWrite c p h1 h2 =>
        rw [h1] at ih
        obtain ⟨_, n, ch, cemi, h2, h3⟩ := ih
        exact h3.send ⟨ch, cemi, h2⟩
      case stSend p h1 =>
        rw [h1] at hci
        obtain ⟨_, _, _, ch, ep, rfl⟩ := hci
        exact hn.mono rfl (by simp [requestsSent, apiSent, stateReq_not_request])
      case dcSend p h1 =>
        rw [h1] at hci
        obtain ⟨_, _, _, ch, ep, rfl⟩ := hci
        exact hn.mono rfl (by simp [requestsSent, apiSent, discReq_not_request])
      case callErr h1 _ _ => rw [h1]; exact hn.mono rfl rfl
      case callPanic h1 _ _ => rw [h1]; exact hn.mono rfl rfl
      case drop h1 _ => rw [h1]; exact hn.mono rfl rfl
      all_goals exact hn.mono rfl rfl

end Knx
