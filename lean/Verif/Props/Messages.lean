import Verif.Lemmas.Texts
import Verif.Spec.Messages
import Verif.Spec.Exec
import Verif.Props.Client
import Verif.Props.Monitor
import Verif.Props.Discover

/-!
# What rejected responses are rejected for (C111)
-/

namespace Knx

open Spec

/-! ## Numbers as texts -/

theorem showU_decimal {n : Nat} (v : BitVec n) : showU v = decimal v.toNat := by
  simp [showU, showNat, decimal, Nat.toList_repr]

theorem hex2_hexadecimal (n : Nat) : hex2 n = hexadecimal n := by
  unfold hex2 hexadecimal
  split <;> simp

theorem decimal_inj {n n' : Nat} (h : decimal n = decimal n') : n = n' := by
  unfold decimal at h
  rw [Nat.toList_repr, Nat.toList_repr] at h
  exact showNat_inj h

/-- The value of a hexadecimal digit; a blank counts as zero. -/
def hexVal (c : Char) : Nat := if c.isDigit then c.toNat - 48 else c.toNat - 55

theorem hexVal_digit : ∀ n < 16, hexVal n.digitChar.toUpper = n := by decide

theorem hexVal_digits (n : Nat) : ((Nat.toDigits 16 n).map Char.toUpper).foldl (fun a c => 16 * a + hexVal c) 0 = n := by
  induction n using Nat.strongRecOn with
  | ind n ih =>
    by_cases h : n < 16
    · rw [Nat.toDigits_of_lt_base h]
      simp [hexVal_digit n h]
    · rw [Nat.toDigits_of_base_le (by omega) (by omega), List.map_append, List.foldl_append, ih _ (by omega)]
      simp only [List.map_cons, List.map_nil, List.foldl_cons, List.foldl_nil]
      rw [hexVal_digit _ (by omega)]
      omega

theorem hexadecimal_inj {n n' : Nat} (h : hexadecimal n = hexadecimal n') : n = n' := by
  have key : ∀ n, (hexadecimal n).foldl (fun a c => 16 * a + hexVal c) 0 = n := by
    intro n
    unfold hexadecimal
    rw [List.foldl_append]
    split
    · exact hexVal_digits n
    · exact hexVal_digits n
  rw [← key n, h, key n']

/-! ## The texts of the two short responses -/

/-- What the library says of a field that does not fit. -/
def shortText (service : String) (f : Misfit) : Text :=
  match f with
  | .size n => "Header size should be 6 instead of ".toList ++ decimal n
  | .version _ => "KNXIP version should be 0x10 instead of  6".toList
  | .service n => service.toList ++ hexadecimal n
  | .length n => "Packet size should be 8, received size ".toList ++ decimal n

/-- The text before the service of a status response. -/
def statusService : String := "Connect response should be 0x0208 instead of "

/-- The text before the service of a disconnect response. -/
def disconnectService : String := "Disconnect response should be 0x020A instead of "

theorem seen_cons8 (d : Bytes) : ∃ a b c e f g h i rest, seen d = a :: b :: c :: e :: f :: g :: h :: i :: rest := by
  have hl : (seen d).length = 100 := by simp [seen, padded]
  match hs : seen d with
  | a :: b :: c :: e :: f :: g :: h :: i :: rest => exact ⟨a, b, c, e, f, g, h, i, rest, rfl⟩
  | [] | [_] | [_, _] | [_, _, _] | [_, _, _, _] | [_, _, _, _, _] | [_, _, _, _, _, _] | [_, _, _, _, _, _, _] =>
    rw [hs] at hl; simp at hl

theorem field_one {d : Bytes} {a : U8} {l r : Bytes} (h : seen d = l ++ a :: r) : field d l.length 1 = a.toNat := by
  simp [field, h, value]

theorem field_two {d : Bytes} {a b : U8} {l r : Bytes} (h : seen d = l ++ a :: b :: r) :
    field d l.length 2 = (ofBe16 a b).toNat := by
  simp [field, h, value, ofBe16_toNat]
  omega


theorem misfit_cons {service : Nat} {d : Bytes} {a b c e f g : U8} {rest : Bytes} (h : seen d = a :: b :: c :: e :: f :: g :: rest) :
    misfit service d = if a.toNat ≠ 6 then some (.size a.toNat) else if b.toNat ≠ 16 then some (.version b.toNat)
      else if (ofBe16 c e).toNat ≠ service then some (.service (ofBe16 c e).toNat)
      else if (ofBe16 f g).toNat ≠ 8 then some (.length (ofBe16 f g).toNat) else none := by
  have h0 := field_one (l := []) h
  have h1 := field_one (l := [a]) h
  have h2 := field_two (l := [a, b]) h
  have h4 := field_two (l := [a, b, c, e]) h
  simp only [List.length_nil, List.length_cons, Nat.zero_add, Nat.reduceAdd] at h0 h1 h2 h4
  unfold misfit
  rw [h0, h1, h2, h4]

/-- A short response as it is read, with any texts. -/
def shortRead {α : Type} (mk : U8 → U8 → α) (code : U16) (t0 t2 t4 t6 t8 t9 : Text) (t1 t3 : U8 → Text) (t5 t7 : U16 → Text) : TRd α := do
  let headerSize ← TRd.u8 t0
  TRd.ensure (headerSize == 6) (t1 headerSize)
  let version ← TRd.u8 t2
  TRd.ensure (version == 0x10) (t3 headerSize)
  let c ← TRd.u16 t4
  TRd.ensure (c == code) (t5 c)
  let size ← TRd.u16 t6
  TRd.ensure (size == 8) (t7 size)
  let channel ← TRd.u8 t8
  let status ← TRd.u8 t9
  return mk channel status

theorem shortRead_text {α : Type} {mk : U8 → U8 → α} {code : U16} {t0 t2 t4 t6 t8 t9 : Text} {t1 t3 : U8 → Text} {t5 t7 : U16 → Text}
    {text : Misfit → Text} (h1 : ∀ n, t1 n = text (.size n.toNat)) (h3 : ∀ n, t3 6 = text (.version n))
    (h5 : ∀ n, t5 n = text (.service n.toNat)) (h7 : ∀ n, t7 n = text (.length n.toNat)) (d : Bytes) :
    (∃ r, runTRd (shortRead mk code t0 t2 t4 t6 t8 t9 t1 t3 t5 t7) (buffer d) = .ok r) ∧ misfit code.toNat d = none ∨
      ∃ f, misfit code.toNat d = some f ∧ runTRd (shortRead mk code t0 t2 t4 t6 t8 t9 t1 t3 t5 t7) (buffer d) = .err (text f) := by
  obtain ⟨a, b, c, e, f, g, h, i, rest, hs⟩ := seen_cons8 d
  rw [buffer_eq_seen, misfit_cons hs, hs]
  simp only [runTRd, shortRead, bind, TRd.u8, TRd.u16, TRd.ensure, pure]
  by_cases ha : a = 6
  · subst ha
    by_cases hb : b = 0x10
    · subst hb
      by_cases hc : ofBe16 c e = code
      · subst hc
        by_cases hf : ofBe16 f g = 8
        · left; simp [hf]
        · right
          have : (ofBe16 f g).toNat ≠ 8 := fun h => hf (BitVec.eq_of_toNat_eq h)
          exact ⟨.length (ofBe16 f g).toNat, by simp [this], by simp [show ¬ ofBe16 f g = 8#16 from hf, h7]⟩
      · right
        have : (ofBe16 c e).toNat ≠ code.toNat := fun h => hc (BitVec.eq_of_toNat_eq h)
        exact ⟨.service (ofBe16 c e).toNat, by simp [this], by simp [hc, h5]⟩
    · right
      have : b.toNat ≠ 16 := fun h => hb (BitVec.eq_of_toNat_eq h)
      exact ⟨.version b.toNat, by simp [this], by simp [show ¬ b = 16#8 from hb, show t3 6#8 = _ from h3 b.toNat]⟩
  · right
    have : a.toNat ≠ 6 := fun h => ha (BitVec.eq_of_toNat_eq h)
    exact ⟨.size a.toNat, by simp [this], by simp [show ¬ a = 6#8 from ha, h1]⟩

theorem version_text : "KNXIP version should be 0x10 instead of ".toList ++ hex2 (6 : U8).toNat =
    "KNXIP version should be 0x10 instead of  6".toList := by decide +kernel

theorem status_text (x : StdText) (d : Bytes) :
    (∃ r, runTRd (ConnectionstateResponse.read x) (buffer d) = .ok r) ∧ misfit CONNECTIONSTATE_RESPONSE d = none ∨
      ∃ f, misfit CONNECTIONSTATE_RESPONSE d = some f ∧
        runTRd (ConnectionstateResponse.read x) (buffer d) = .err (shortText statusService f) :=
  shortRead_text (mk := ConnectionstateResponse.mk) (code := 0x0208) (text := shortText statusService)
    (fun n => by rw [showU_decimal]; rfl) (fun _ => version_text) (fun n => by rw [hex2_hexadecimal]; rfl)
    (fun n => by rw [showU_decimal]; rfl) d

theorem disconnect_text (x : StdText) (d : Bytes) :
    (∃ r, runTRd (DisconnectResponse.read x) (buffer d) = .ok r) ∧ misfit DISCONNECT_RESPONSE d = none ∨
      ∃ f, misfit DISCONNECT_RESPONSE d = some f ∧
        runTRd (DisconnectResponse.read x) (buffer d) = .err (shortText disconnectService f) :=
  shortRead_text (mk := DisconnectResponse.mk) (code := 0x020a) (text := shortText disconnectService)
    (fun n => by rw [showU_decimal]; rfl) (fun _ => version_text) (fun n => by rw [hex2_hexadecimal]; rfl)
    (fun n => by rw [showU_decimal]; rfl) d

theorem head?_append {l r : Text} {c : Char} (h : l.head? = some c) : (l ++ r).head? = some c := by
  cases l <;> simp_all

/-- Two fields give the same text only if they are the same field with the same value, or both versions. -/
theorem shortText_iff {service : String} (hs : service.toList.head? = some 'C' ∨ service.toList.head? = some 'D') (f f' : Misfit) :
    shortText service f = shortText service f' ↔ f = f' ∨ f.versions f' := by
  have e1 : ∀ n, (shortText service (.size n)).head? = some 'H' := fun n => by
    unfold shortText; exact head?_append (by decide +kernel)
  have e2 : ∀ n, (shortText service (.version n)).head? = some 'K' := fun n => by
    unfold shortText; dsimp only; decide +kernel
  have e3 : ∀ n, (shortText service (.service n)).head? = service.toList.head? := fun n => by
    unfold shortText
    rcases hs with h | h
    · exact (head?_append h).trans h.symm
    · exact (head?_append h).trans h.symm
  have e4 : ∀ n, (shortText service (.length n)).head? = some 'P' := fun n => by
    unfold shortText; exact head?_append (by decide +kernel)
  constructor
  · intro h
    have hh := congrArg List.head? h
    cases f <;> cases f' <;> simp only [e1, e2, e3, e4] at hh
    case size.size a b => exact .inl (congrArg _ (decimal_inj (List.append_cancel_left h)))
    case version.version => exact .inr trivial
    case service.service a b => exact .inl (congrArg _ (hexadecimal_inj (List.append_cancel_left h)))
    case length.length a b => exact .inl (congrArg _ (decimal_inj (List.append_cancel_left h)))
    all_goals exact absurd hh (by rcases hs with hs | hs <;> simp [hs])
  · rintro (rfl | h)
    · rfl
    · cases f <;> cases f' <;> first | exact h.elim | rfl

/-! ## C111 -/

/-- C111: whenever the client rejects the response to a status query, the first field of the datagram that does not fit is one of the
header, and the text is this one. -/
theorem C111_status_exact {m : Mode} {s s' : Sys} {tr o : List Obs} {d : Bytes} (x : StdText) (_h : Exec m s tr)
    (hs : step m s (.api (.dgram d)) = some (s', o)) (ho : Obs.ret .err ∈ o) :
    ∃ f, misfit CONNECTIONSTATE_RESPONSE d = some f ∧ apiText x s (.dgram d) = some (shortText statusService f) := by
  have ha : s.api = .stRecv := by
    simp only [step, apiStep] at hs
    cases hp : s.api <;> rw [hp] at hs <;> simp at hs
  have he : runRd ConnectionstateResponse.fromPacket id (buffer d) = .err := by
    simp only [step, apiStep, ha] at hs
    cases hr : runRd ConnectionstateResponse.fromPacket id (buffer d) <;> simp [hr, finish] at hs
    · rw [← hs.2] at ho; simp at ho
    · rfl
    · rw [← hs.2] at ho; simp at ho
  have hx := runTRd_erase (ConnectionstateResponse.read x) (buffer d)
  rw [ConnectionstateResponse.read_erase, he] at hx
  rcases status_text x d with ⟨⟨r, hr⟩, _⟩ | ⟨f, h1, h2⟩
  · rw [hr] at hx; cases hx
  · exact ⟨f, h1, by simp only [apiText, ha, h2]⟩

/-- C111: whenever the monitor rejects the response to its disconnect request, the text names the channel it asked to disconnect, and
shows the text about the first field that does not fit. -/
theorem C111_disconnect_exact {m : Mode} {s s' : MSys} {tr o : List Obs} {d p : Bytes} (x : StdText) (_h : MExec m s tr)
    (hs : mstep m s (.api (.dgram d)) = some (s', o)) (ho : Obs.ret .err ∈ o) (_hp : apiSent (since isCall tr) = [p]) :
    ∃ f, misfit DISCONNECT_RESPONSE d = some f ∧ mapiText x .disconnect (p.getD 6 0) s (.dgram d) =
      some ("Unable to request disconnection for id ".toList ++ decimal (p.getD 6 0).toNat ++ ", ".toList ++
        x.whatever (shortText disconnectService f)) := by
  have ha : s.api = .dcRecv := by
    simp only [mstep, mapiStep, mcallStep] at hs
    cases hp : s.api <;> rw [hp] at hs <;> simp at hs
  have he : runRd DisconnectResponse.fromPacket id (buffer d) = .err := by
    simp only [mstep, mapiStep, mcallStep, ha] at hs
    cases hr : runRd DisconnectResponse.fromPacket id (buffer d) <;> simp [hr, mfinish] at hs
    · rw [← hs.2] at ho; simp at ho
    · rfl
    · rw [← hs.2] at ho; simp at ho
  have hx := runTRd_erase (DisconnectResponse.read x) (buffer d)
  rw [DisconnectResponse.read_erase, he] at hx
  rcases disconnect_text x d with ⟨⟨r, hr⟩, _⟩ | ⟨f, h1, h2⟩
  · rw [hr] at hx; cases hx
  · exact ⟨f, h1, by simp only [mapiText, ha, h2, showU_decimal]⟩

/-- A client of 192.168.1.2, connected on channel 7, that has sent a status query. -/
def queryEvs : List Ev := [.bg .run, .bg .sendOk, .bg (.dgram grant7), .bg .run, .api (.call .status), .api .run, .api .run, .api .sendOk]

/-- A response to it with version `v`, service `0x02lo`, and length `len`. -/
def shortResponse (v lo len : U8) : Bytes := [6, v, 2, lo, 0, len, 7, 0]

theorem query_exec (m : Mode) : ∃ s tr, Exec m s tr ∧ s.api = .stRecv := by
  obtain ⟨s, tr, h1, h2⟩ := exec_of_evs (m := m) (evs := queryEvs) (f := fun x => x.1.api) (y := .stRecv)
    (by cases m <;> decide +kernel)
  exact ⟨s, tr, h1, h2⟩

theorem query_rejects {m : Mode} {s : Sys} {d : Bytes} (h : s.api = .stRecv)
    (hd : runRd ConnectionstateResponse.fromPacket id (buffer d) = .err) :
    step m s (.api (.dgram d)) = some ({ s with api := .idle }, [.rxApi d, .ret .err]) := by
  simp [step, apiStep, h, hd, finish]

example (m : Mode) (x : StdText) : ∃ s s' tr o, Exec m s tr ∧ step m s (.api (.dgram (shortResponse 0x10 0x0a 8))) = some (s', o) ∧
    Obs.ret .err ∈ o ∧ apiText x s (.dgram (shortResponse 0x10 0x0a 8)) = some "Connect response should be 0x0208 instead of 20A".toList := by
  obtain ⟨s, tr, h1, h2⟩ := query_exec m
  have hs := query_rejects (m := m) (d := shortResponse 0x10 0x0a 8) h2 (by decide +kernel)
  obtain ⟨f, hf, ht⟩ := C111_status_exact x h1 hs (by simp)
  refine ⟨s, _, tr, _, h1, hs, by simp, ?_⟩
  have : f = .service 0x020a := by
    have : misfit CONNECTIONSTATE_RESPONSE (shortResponse 0x10 0x0a 8) = some (.service 0x020a) := by decide +kernel
    rw [this] at hf
    exact (Option.some.inj hf).symm
  rw [ht, this]
  decide +kernel

/-- C111: two responses that the client rejects are rejected with the same text iff the same field is wrong, with the same value, or
the version is wrong in both. -/
theorem C111_status_iff {m m' : Mode} {s s1 s' s1' : Sys} {tr tr' o o' : List Obs} {d d' : Bytes} (x : StdText) (h : Exec m s tr)
    (hs : step m s (.api (.dgram d)) = some (s1, o)) (ho : Obs.ret .err ∈ o) (h' : Exec m' s' tr')
    (hs' : step m' s' (.api (.dgram d')) = some (s1', o')) (ho' : Obs.ret .err ∈ o') :
    apiText x s (.dgram d) = apiText x s' (.dgram d') ↔
      ∃ f f', misfit CONNECTIONSTATE_RESPONSE d = some f ∧ misfit CONNECTIONSTATE_RESPONSE d' = some f' ∧ (f = f' ∨ f.versions f') := by
  obtain ⟨f, h1, h2⟩ := C111_status_exact x h hs ho
  obtain ⟨f', h1', h2'⟩ := C111_status_exact x h' hs' ho'
  rw [h2, h2', Option.some.injEq, shortText_iff (.inl (by decide +kernel))]
  constructor
  · exact fun h => ⟨f, f', h1, h1', h⟩
  · rintro ⟨g, g', e1, e2, h⟩
    rw [h1] at e1
    rw [h1'] at e2
    cases e1
    cases e2
    exact h

/-- C111, the part that holds: if it is not the version that is wrong, the text tells which field is wrong, and its value. -/
theorem C111_partial {m m' : Mode} {s s1 s' s1' : Sys} {tr tr' o o' : List Obs} {d d' : Bytes} (x : StdText) (h : Exec m s tr)
    (hs : step m s (.api (.dgram d)) = some (s1, o)) (ho : Obs.ret .err ∈ o) (h' : Exec m' s' tr')
    (hs' : step m' s' (.api (.dgram d')) = some (s1', o')) (ho' : Obs.ret .err ∈ o')
    (hv : ∀ v, misfit CONNECTIONSTATE_RESPONSE d ≠ some (.version v))
    (ht : apiText x s (.dgram d) = apiText x s' (.dgram d')) :
    misfit CONNECTIONSTATE_RESPONSE d = misfit CONNECTIONSTATE_RESPONSE d' := by
  obtain ⟨f, f', h1, h2, h3 | h3⟩ := (C111_status_iff x h hs ho h' hs' ho').1 ht
  · rw [h1, h2, h3]
  · cases f <;> cases f' <;> first | exact h3.elim | exact absurd h1 (hv _)

/-- C111 is refuted: if the version of a response is wrong, the text does not depend on it. It says, for every wrong version, that the
version is 6 (the size of the header). -/
theorem C111_violated {m : Mode} {s s' : Sys} {tr o : List Obs} {d : Bytes} {v : Nat} (x : StdText) (h : Exec m s tr)
    (hs : step m s (.api (.dgram d)) = some (s', o)) (ho : Obs.ret .err ∈ o) (hv : misfit CONNECTIONSTATE_RESPONSE d = some (.version v)) :
    apiText x s (.dgram d) = some "KNXIP version should be 0x10 instead of  6".toList := by
  obtain ⟨f, h1, h2⟩ := C111_status_exact x h hs ho
  rw [hv] at h1
  cases h1
  exact h2

/-- Responses with versions 0x11 and 0x20. -/
example (m : Mode) (x : StdText) : ∃ s s' s'' tr o o', Exec m s tr ∧
    step m s (.api (.dgram (shortResponse 0x11 8 8))) = some (s', o) ∧ Obs.ret .err ∈ o ∧
    step m s (.api (.dgram (shortResponse 0x20 8 8))) = some (s'', o') ∧ Obs.ret .err ∈ o' ∧
    misfit CONNECTIONSTATE_RESPONSE (shortResponse 0x11 8 8) = some (.version 0x11) ∧
    misfit CONNECTIONSTATE_RESPONSE (shortResponse 0x20 8 8) = some (.version 0x20) ∧
    apiText x s (.dgram (shortResponse 0x11 8 8)) = apiText x s (.dgram (shortResponse 0x20 8 8)) := by
  obtain ⟨s, tr, h1, h2⟩ := query_exec m
  have hs := query_rejects (m := m) (d := shortResponse 0x11 8 8) h2 (by decide +kernel)
  have hs' := query_rejects (m := m) (d := shortResponse 0x20 8 8) h2 (by decide +kernel)
  have e1 : misfit CONNECTIONSTATE_RESPONSE (shortResponse 0x11 8 8) = some (.version 0x11) := by decide +kernel
  have e2 : misfit CONNECTIONSTATE_RESPONSE (shortResponse 0x20 8 8) = some (.version 0x20) := by decide +kernel
  exact ⟨s, _, _, tr, _, _, h1, hs, by simp, hs', by simp, e1, e2,
    (C111_status_iff x h1 hs (by simp) h1 hs' (by simp)).2 ⟨_, _, e1, e2, .inr trivial⟩⟩

/-- C111 for the monitor: two responses to disconnect requests for the same channel are rejected with the same text iff the same field
is wrong, with the same value, or the version is wrong in both. -/
theorem C111_disconnect_iff {m m' : Mode} {s s1 s' s1' : MSys} {tr tr' o o' : List Obs} {d d' p p' : Bytes} (x : StdText)
    (hx : ∀ t t', x.whatever t = x.whatever t' → t = t') (h : MExec m s tr)
    (hs : mstep m s (.api (.dgram d)) = some (s1, o)) (ho : Obs.ret .err ∈ o) (hp : apiSent (since isCall tr) = [p]) (h' : MExec m' s' tr')
    (hs' : mstep m' s' (.api (.dgram d')) = some (s1', o')) (ho' : Obs.ret .err ∈ o') (hp' : apiSent (since isCall tr') = [p'])
    (hc : p.getD 6 0 = p'.getD 6 0) :
    mapiText x .disconnect (p.getD 6 0) s (.dgram d) = mapiText x .disconnect (p'.getD 6 0) s' (.dgram d') ↔
      ∃ f f', misfit DISCONNECT_RESPONSE d = some f ∧ misfit DISCONNECT_RESPONSE d' = some f' ∧ (f = f' ∨ f.versions f') := by
  obtain ⟨f, h1, h2⟩ := C111_disconnect_exact x h hs ho hp
  obtain ⟨f', h1', h2'⟩ := C111_disconnect_exact x h' hs' ho' hp'
  rw [h2, h2', Option.some.injEq, hc, List.append_cancel_left_eq]
  have : x.whatever (shortText disconnectService f) = x.whatever (shortText disconnectService f') ↔ f = f' ∨ f.versions f' := by
    rw [← shortText_iff (service := disconnectService) (.inr (by decide +kernel))]
    exact ⟨hx _ _, fun h => by rw [h]⟩
  rw [this]
  constructor
  · exact fun h => ⟨f, f', h1, h1', h⟩
  · rintro ⟨g, g', e1, e2, h⟩
    rw [h1] at e1
    rw [h1'] at e2
    cases e1
    cases e2
    exact h

/-- A monitor, connected on channel 7, that has sent a disconnect request. -/
def byeEvs : List MEv := mconnEvs ++ [.api (.call .disconnect), .api .run, .api .run, .api .sendOk]

example (m : Mode) (x : StdText) : ∃ s s' s'' tr o o' p, MExec m s tr ∧ apiSent (since isCall tr) = [p] ∧ p.getD 6 0 = 7 ∧
    mstep m s (.api (.dgram (shortResponse 0x11 0x0a 8))) = some (s', o) ∧ Obs.ret .err ∈ o ∧
    mstep m s (.api (.dgram (shortResponse 0x20 0x0a 8))) = some (s'', o') ∧ Obs.ret .err ∈ o' ∧
    misfit DISCONNECT_RESPONSE (shortResponse 0x11 0x0a 8) = some (.version 0x11) ∧
    misfit DISCONNECT_RESPONSE (shortResponse 0x20 0x0a 8) = some (.version 0x20) ∧
    mapiText x .disconnect 7 s (.dgram (shortResponse 0x11 0x0a 8)) = mapiText x .disconnect 7 s (.dgram (shortResponse 0x20 0x0a 8)) := by
  obtain ⟨s, tr, h1, h2⟩ := mexec_of_evs (m := m) (evs := byeEvs)
    (f := fun x => (x.1.api, (apiSent (since isCall x.2)).map fun p => p.getD 6 0)) (y := (.dcRecv, [7]))
    (by cases m <;> decide +kernel)
  simp only [Prod.mk.injEq] at h2
  obtain ⟨p, hp, hp7⟩ : ∃ p, apiSent (since isCall tr) = [p] ∧ p.getD 6 0 = 7 := by
    have := h2.2
    match hq : apiSent (since isCall tr) with
    | [p] => rw [hq] at this; exact ⟨p, rfl, by simpa using this⟩
    | [] => rw [hq] at this; simp at this
    | _ :: _ :: _ => rw [hq] at this; simp at this
  have rej : ∀ d, runRd DisconnectResponse.fromPacket id (buffer d) = .err →
      mstep m s (.api (.dgram d)) = some ({ s with api := .idle }, [.rxApi d, .ret .err]) := by
    intro d hd
    simp [mstep, mapiStep, mcallStep, h2.1, hd, mfinish]
  have hs := rej (shortResponse 0x11 0x0a 8) (by decide +kernel)
  have hs' := rej (shortResponse 0x20 0x0a 8) (by decide +kernel)
  have e1 : misfit DISCONNECT_RESPONSE (shortResponse 0x11 0x0a 8) = some (.version 0x11) := by decide +kernel
  have e2 : misfit DISCONNECT_RESPONSE (shortResponse 0x20 0x0a 8) = some (.version 0x20) := by decide +kernel
  refine ⟨s, _, _, tr, _, _, p, h1, hp, hp7, hs, by simp, hs', by simp, e1, e2, ?_⟩
  obtain ⟨f, k1, k2⟩ := C111_disconnect_exact x h1 hs (by simp) hp
  obtain ⟨f', k1', k2'⟩ := C111_disconnect_exact x h1 hs' (by simp) hp
  rw [e1] at k1
  rw [e2] at k1'
  cases k1
  cases k1'
  rw [hp7] at k2 k2'
  rw [k2, k2']
  rfl

/-- C111 is refuted for the search too: a response with a wrong version ends the search with a text that shows the version expected
instead, whatever the version is. -/
theorem C111_search_violated (m : Mode) (x : StdText) (timeout now deadline : Nat) (buf : Bytes) (found : List SearchResponse) (d : Bytes)
    (hb : buf.length = 100) (v : U8) (rest : Bytes) (hd : d = 6 :: v :: rest) (hv : v ≠ 0x10) :
    searchStep m timeout now (.waiting buf found deadline) (.dgram d) = some (.finished .err) ∧
      searchText x m (overwrite buf d) = some "KNXIP protocol version should be 0x10 instead of 10".toList := by
  obtain ⟨r, hr⟩ : ∃ r, overwrite buf d = 6 :: v :: r := by
    subst hd
    simp [overwrite, hb]
  have ht : searchText x m (overwrite buf d) = some "KNXIP protocol version should be 0x10 instead of 10".toList := by
    have e : "KNXIP protocol version should be 0x10 instead of ".toList ++ hex2 0x10 =
        "KNXIP protocol version should be 0x10 instead of 10".toList := by decide +kernel
    rw [← e, hr]
    have h : Header.read x (6 :: v :: r) = .err ("KNXIP protocol version should be 0x10 instead of ".toList ++ hex2 0x10) := by
      simp only [Header.read, bind, TRd.u8, TRd.ensure]
      generalize "KNXIP protocol version should be 0x10 instead of ".toList ++ hex2 0x10 = t
      simp [show ¬ v = 16#8 from hv]
    revert h
    generalize "KNXIP protocol version should be 0x10 instead of ".toList ++ hex2 0x10 = t
    intro h
    unfold searchText runTRd SearchResponse.read
    simp only [bind]
    rw [h]
  refine ⟨?_, ht⟩
  have hx := runTRd_erase (SearchResponse.read x m) (overwrite buf d)
  rw [SearchResponse.read_erase] at hx
  unfold searchText at ht
  cases hq : runTRd (SearchResponse.read x m) (overwrite buf d) <;> rw [hq] at ht hx <;> cases ht
  simp only [TRes.erase] at hx
  simp [searchStep, ← hx]

/-- Responses with versions 0x11 and 0x20 that are correct otherwise, to a search that has found nothing yet. -/
example (m : Mode) (x : StdText) (rest : Bytes) :
    searchStep m 1000 0 (.waiting (List.replicate 100 0) [] 1000) (.dgram (6 :: 0x11 :: rest)) = some (.finished .err) ∧
    searchText x m (overwrite (List.replicate 100 0) (6 :: 0x11 :: rest)) =
      searchText x m (overwrite (List.replicate 100 0) (6 :: 0x20 :: rest)) := by
  have h1 := C111_search_violated m x 1000 0 1000 (List.replicate 100 0) [] (6 :: 0x11 :: rest) rfl 0x11 rest rfl (by decide)
  have h2 := C111_search_violated m x 1000 0 1000 (List.replicate 100 0) [] (6 :: 0x20 :: rest) rfl 0x20 rest rfl (by decide)
  exact ⟨h1.1, h1.2.trans h2.2.symm⟩

end Knx
