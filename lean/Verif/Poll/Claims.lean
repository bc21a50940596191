import Verif.Poll.Model
import Mathlib.Data.List.Induction
import Mathlib.Tactic.Linarith
/-! # C160: the interactive choice of a combination -/
namespace Verif.Poll

namespace Spec
/-- The number an event gives. -/
def num (e : Event) : Option ℤ := pyInt e.line
/-- The numbers offered by the prompt. -/
def Offered {C : Type} (combos : List C) (k : ℤ) : Prop := 0 ≤ k ∧ k < combos.length
/-- The combination with number `k`; negative numbers count from the end. -/
def At {C : Type} (combos : List C) (k : ℤ) (c : C) : Prop :=
  ∃ i : ℕ, combos[i]? = some c ∧ (k = i ∨ k = i - combos.length)
/-- An event that the function survives without returning: a combination that is not accepted, or, when a number was typed before,
text that is no number. -/
def Passed {C : Type} (combos : List C) (before : List Event) (e : Event) : Prop :=
  (∃ k c, num e = some k ∧ At combos k c ∧ e.accept = false) ∨ (num e = none ∧ ∃ e' ∈ before, (num e').isSome)
end Spec

theorem pyGet_iff {C : Type} (l : List C) (k : ℤ) (c : C) : pyGet l k = some c ↔ Spec.At l k c := by
  unfold pyGet Spec.At
  constructor
  · intro h
    split_ifs at h with h0 h1
    · exact ⟨k.toNat, h, Or.inl (by omega)⟩
    · exact ⟨_, h, Or.inr (by omega)⟩
  · rintro ⟨i, hi, rfl | rfl⟩
    · rw [if_pos (by omega)]; simpa using hi
    · have hlt : i < l.length := (List.getElem?_eq_some_iff.1 hi).1
      rw [if_neg (by omega), if_pos (by omega)]
      have : ((l.length : ℤ) + ((i : ℤ) - l.length)).toNat = i := by omega
      rw [this]; exact hi

theorem pyGet_none {C : Type} (l : List C) (k : ℤ) : pyGet l k = none ↔ ¬ (-(l.length : ℤ) ≤ k ∧ k < l.length) := by
  unfold pyGet
  split_ifs with h0 h1
  · rw [List.getElem?_eq_none_iff]; omega
  · constructor
    · intro h; rw [List.getElem?_eq_none_iff] at h; omega
    · intro h; omega
  · constructor
    · intro _ h; omega
    · intro _; rfl

theorem poll_cons {C : Type} (combos : List C) (last : Option ℤ) (e : Event) (es : List Event) : poll combos last (e :: es) =
    match pyInt e.line with
    | none =>
      match last with
      | none => ([], .unboundLocal)
      | some k => let r := poll combos (some k) es; (.unknown k :: r.1, r.2)
    | some k =>
      match pyGet combos k with
      | none => ([], .indexError)
      | some c =>
        if e.accept then ([.selected k c], .returned k)
        else let r := poll combos (some k) es; (.selected k c :: r.1, r.2) := by
  conv_lhs => rw [poll.eq_def]
  rfl

/-- Events that are passed do not end the function. -/
theorem poll_append {C : Type} (combos : List C) (es es' : List Event) (before : List Event) (last : Option ℤ)
    (hb : last.isSome ↔ ∃ e ∈ before, (Spec.num e).isSome)
    (h : ∀ i (hi : i < es.length), Spec.Passed combos (before ++ es.take i) es[i]) :
    ∃ msgs last', (last'.isSome ↔ ∃ e ∈ before ++ es, (Spec.num e).isSome) ∧ msgs.length = es.length ∧
      poll combos last (es ++ es') = (msgs ++ (poll combos last' es').1, (poll combos last' es').2) := by
  induction es generalizing before last with
  | nil => exact ⟨[], last, by simpa using hb, rfl, by simp⟩
  | cons e es ih =>
    have h0 : Spec.Passed combos before e := by
      have := h 0 (by simp)
      rw [List.take_zero, List.append_nil] at this
      exact this
    have hrest : ∀ i (hi : i < es.length), Spec.Passed combos ((before ++ [e]) ++ es.take i) es[i] := by
      intro i hi
      have := h (i + 1) (by simp; omega)
      simpa using this
    rcases h0 with ⟨k, c, hk, hc, ha⟩ | ⟨hk, hbef⟩
    · obtain ⟨msgs, last', h1, h2, h3⟩ := ih (before ++ [e]) (some k) (by
        simp only [Option.isSome_some, true_iff]
        exact ⟨e, by simp, by rw [hk]; rfl⟩) hrest
      refine ⟨.selected k c :: msgs, last', by simpa using h1, by simp [h2], ?_⟩
      have hk' : pyInt e.line = some k := hk
      rw [List.cons_append, poll_cons]
      simp only [hk', (pyGet_iff combos k c).2 hc, ha, Bool.false_eq_true, if_false, h3, List.cons_append]
    · obtain ⟨k, hl⟩ := Option.isSome_iff_exists.1 (hb.2 hbef)
      subst hl
      obtain ⟨msgs, last', h1, h2, h3⟩ := ih (before ++ [e]) (some k) (by
        simp only [Option.isSome_some, true_iff]
        obtain ⟨e', he', hs⟩ := hbef
        exact ⟨e', by simp [he'], hs⟩) hrest
      refine ⟨.unknown k :: msgs, last', by simpa using h1, by simp [h2], ?_⟩
      have hk' : pyInt e.line = none := hk
      rw [List.cons_append, poll_cons]
      simp only [hk', h3, List.cons_append]

/-- Either all events are passed, or there is a first one that is not. -/
theorem first_stop {C : Type} (combos : List C) (es : List Event) :
    (∀ i (hi : i < es.length), Spec.Passed combos (es.take i) es[i]) ∨
    ∃ pre e post, es = pre ++ e :: post ∧ (∀ i (hi : i < pre.length), Spec.Passed combos (pre.take i) pre[i]) ∧
      ¬ Spec.Passed combos pre e := by
  induction es using List.reverseRecOn with
  | nil => left; intro i hi; simp at hi
  | append_singleton es e ih =>
    rcases ih with ih | ⟨pre, e', post, rfl, h1, h2⟩
    · by_cases he : Spec.Passed combos es e
      · left
        intro i hi
        rcases Nat.lt_or_ge i es.length with hlt | hge
        · have := ih i hlt
          rw [List.getElem_append_left hlt, List.take_append_of_le_length hlt.le]
          exact this
        · have : i = es.length := by simp at hi; omega
          subst this
          simpa using he
      · right; exact ⟨es, e, [], rfl, ih, he⟩
    · right; exact ⟨pre, e', post ++ [e], by simp, h1, h2⟩

/-- What one event does that is not passed. -/
theorem poll_stop {C : Type} (combos : List C) (last : Option ℤ) (before : List Event) (e : Event) (post : List Event)
    (hb : last.isSome ↔ ∃ e ∈ before, (Spec.num e).isSome) (h : ¬ Spec.Passed combos before e) :
    (∃ k c, Spec.num e = some k ∧ Spec.At combos k c ∧ e.accept = true ∧ poll combos last (e :: post) = ([.selected k c], .returned k)) ∨
    (∃ k, Spec.num e = some k ∧ (k < -(combos.length : ℤ) ∨ (combos.length : ℤ) ≤ k) ∧ poll combos last (e :: post) = ([], .indexError)) ∨
    (Spec.num e = none ∧ (∀ e' ∈ before, Spec.num e' = none) ∧ poll combos last (e :: post) = ([], .unboundLocal)) := by
  unfold Spec.Passed at h
  rw [not_or] at h
  cases hk : Spec.num e with
  | none =>
    right; right
    have hn : ∀ e' ∈ before, Spec.num e' = none := by
      intro e' he'
      cases hs : Spec.num e' with
      | none => rfl
      | some _ => exact absurd ⟨hk, e', he', by rw [hs]; rfl⟩ h.2
    have hl : last = none := by
      cases last with
      | none => rfl
      | some _ =>
        obtain ⟨e', he', hs⟩ := hb.1 rfl
        rw [hn e' he'] at hs; cases hs
    refine ⟨rfl, hn, ?_⟩
    have hk' : pyInt e.line = none := hk
    rw [poll_cons]
    simp only [hk', hl]
  | some k =>
    have hk' : pyInt e.line = some k := hk
    cases hg : pyGet combos k with
    | none =>
      right; left
      refine ⟨k, rfl, ?_, ?_⟩
      · have := (pyGet_none combos k).1 hg
        omega
      · rw [poll_cons]
        simp only [hk', hg]
    | some c =>
      left
      have hc := (pyGet_iff combos k c).1 hg
      have ha : e.accept = true := by
        cases ha : e.accept with
        | true => rfl
        | false => exact absurd ⟨k, c, hk, hc, ha⟩ h.1
      refine ⟨k, c, rfl, hc, ha, ?_⟩
      rw [poll_cons]
      simp only [hk', hg, ha, if_true]

/-- **C160.** Every history of inputs: as long as the user rejects combinations, or types something that is no number after having typed a
number, the question is repeated; the first other input decides. An accepted number is returned after its combination was shown; a number
without combination ends with IndexError; text before the first number ends with UnboundLocalError. -/
theorem C160_outcome_partial {C : Type} (combos : List C) (es : List Event) :
    ((∀ i (hi : i < es.length), Spec.Passed combos (es.take i) es[i]) ∧ (poll combos none es).2 = .eof) ∨
    ∃ pre e post, es = pre ++ e :: post ∧ (∀ i (hi : i < pre.length), Spec.Passed combos (pre.take i) pre[i]) ∧
      ((∃ k c, Spec.num e = some k ∧ Spec.At combos k c ∧ e.accept = true ∧ (poll combos none es).2 = .returned k ∧
          (poll combos none es).1.getLast? = some (.selected k c)) ∨
        (∃ k, Spec.num e = some k ∧ (k < -(combos.length : ℤ) ∨ (combos.length : ℤ) ≤ k) ∧ (poll combos none es).2 = .indexError) ∨
        (Spec.num e = none ∧ (∀ e' ∈ pre, Spec.num e' = none) ∧ (poll combos none es).2 = .unboundLocal)) := by
  rcases first_stop combos es with h | ⟨pre, e, post, rfl, h1, h2⟩
  · left
    refine ⟨h, ?_⟩
    obtain ⟨msgs, last', -, -, e⟩ := poll_append combos es [] [] none (by simp) (by simpa using h)
    rw [List.append_nil] at e
    rw [e]
    rfl
  · right
    obtain ⟨msgs, last', hl, -, e1⟩ := poll_append combos pre (e :: post) [] none (by simp) (by simpa using h1)
    rw [List.nil_append] at hl
    refine ⟨pre, e, post, rfl, h1, ?_⟩
    rcases poll_stop combos last' pre e post hl h2 with ⟨k, c, a, b, d, f⟩ | ⟨k, a, b, f⟩ | ⟨a, b, f⟩
    · left
      refine ⟨k, c, a, b, d, by rw [e1, f], by rw [e1, f]; simp⟩
    · right; left; exact ⟨k, a, b, by rw [e1, f]⟩
    · right; right; exact ⟨a, b, by rw [e1, f]⟩

/-- The returned number was typed, accepted, and is the number of the last combination shown. -/
theorem C160_returned_partial {C : Type} (combos : List C) (es : List Event) (k : ℤ) (h : (poll combos none es).2 = .returned k) :
    ∃ e ∈ es, Spec.num e = some k ∧ e.accept = true ∧ ∃ c, Spec.At combos k c ∧ (poll combos none es).1.getLast? = some (.selected k c) := by
  rcases C160_outcome_partial combos es with ⟨-, h'⟩ | ⟨pre, e, post, rfl, -, ⟨k', c, a, b, d, f, g⟩ | ⟨_, _, _, h'⟩ | ⟨_, _, h'⟩⟩
  · rw [h] at h'; cases h'
  · rw [h] at f; cases f
    exact ⟨e, by simp, a, d, c, b, g⟩
  · rw [h] at h'; cases h'
  · rw [h] at h'; cases h'

/-- **C160 refuted:** a first input that is no number raises instead of asking for a valid integer. -/
theorem C160_first_text_wrong {C : Type} (combos : List C) (e : Event) (es : List Event) (h : Spec.num e = none) :
    poll combos none (e :: es) = ([], .unboundLocal) := by
  have h' : pyInt e.line = none := h
  rw [poll_cons]
  simp only [h']

/-- **C160 refuted:** numbers outside the offered range are not rejected: those from `-n` to `-1` are accepted, all others raise. -/
theorem C160_range_wrong {C : Type} (combos : List C) (k : ℤ) (e : Event) (es : List Event) (h : Spec.num e = some k) (hk : ¬ Spec.Offered combos k)
    (ha : e.accept = true) :
    (-(combos.length : ℤ) ≤ k ∧ (poll combos none (e :: es)).2 = .returned k ∧ k < 0) ∨ (poll combos none (e :: es)).2 = .indexError := by
  have h' : pyInt e.line = some k := h
  unfold Spec.Offered at hk
  rw [poll_cons]
  simp only [h']
  cases hg : pyGet combos k with
  | none => right; rfl
  | some c =>
    left
    have : ¬ pyGet combos k = none := by rw [hg]; simp
    rw [pyGet_none, not_not] at this
    simp only [ha, if_true]
    exact ⟨this.1, trivial, by omega⟩

namespace Spec
/-- Decimal notation. -/
def decimal (n : ℕ) : List Char := if n < 10 then [Char.ofNat (48 + n)] else decimal (n / 10) ++ [Char.ofNat (48 + n % 10)]
end Spec

theorem digit_char : ∀ d : Fin 10, (Char.ofNat (48 + d)).isDigit = true ∧ (Char.ofNat (48 + d)).toNat - 48 = d ∧ Char.ofNat (48 + d) ≠ '_' ∧
    Char.ofNat (48 + d) ≠ '-' ∧ Char.ofNat (48 + d) ≠ '+' ∧ blank (Char.ofNat (48 + d)) = false := by decide

theorem decimal_chars (n : ℕ) : Spec.decimal n ≠ [] ∧ ∀ c ∈ Spec.decimal n, ∃ d : Fin 10, c = Char.ofNat (48 + d) := by
  induction n using Nat.strongRecOn with
  | ind n ih =>
    unfold Spec.decimal
    split_ifs with h
    · exact ⟨by simp, fun c hc => ⟨⟨n, h⟩, by simpa using hc⟩⟩
    · refine ⟨by simp, fun c hc => ?_⟩
      rcases List.mem_append.1 hc with hc | hc
      · exact (ih (n / 10) (by omega)).2 c hc
      · exact ⟨⟨n % 10, by omega⟩, by simpa using hc⟩

theorem decimal_value (n : ℕ) : (Spec.decimal n).foldl (fun n c => 10 * n + (c.toNat - 48)) 0 = n := by
  induction n using Nat.strongRecOn with
  | ind n ih =>
    unfold Spec.decimal
    split_ifs with h
    · have := (digit_char ⟨n, h⟩).2.1
      simp only [List.foldl_cons, List.foldl_nil]
      simpa using this
    · rw [List.foldl_append, ih (n / 10) (by omega)]
      have := (digit_char ⟨n % 10, by omega⟩).2.1
      simp only [List.foldl_cons, List.foldl_nil]
      dsimp only at this
      rw [this]; omega

theorem splitOn_none (s : List Char) (h : '_' ∉ s) : s.splitOn '_' = [s] := by
  unfold List.splitOn
  apply List.splitOnP_eq_singleton
  intro c hc
  simpa using fun e : c = '_' => h (e ▸ hc)

theorem number_decimal (n : ℕ) : number (Spec.decimal n) = some n := by
  obtain ⟨hne, hc⟩ := decimal_chars n
  have hu : '_' ∉ Spec.decimal n := fun hm => by
    obtain ⟨d, hd⟩ := hc _ hm
    exact (digit_char d).2.2.1 hd.symm
  have hf : (Spec.decimal n).filter (· ≠ '_') = Spec.decimal n := by
    rw [List.filter_eq_self]
    intro c hm
    simpa using fun e : c = '_' => hu (e ▸ hm)
  have hd : (Spec.decimal n).any (fun c => !c.isDigit) = false := by
    rw [List.any_eq_false]
    intro c hm
    obtain ⟨d, rfl⟩ := hc c hm
    simp [(digit_char d).1]
  unfold number digits
  rw [splitOn_none _ hu, hf, hd, decimal_value]
  simp [hne]

theorem strip_nonblank (s : List Char) (h : ∀ c ∈ s, blank c = false) : strip s = s := by
  have key : ∀ t : List Char, (∀ c ∈ t, blank c = false) → t.dropWhile blank = t := by
    intro t ht
    cases t with
    | nil => rfl
    | cons a t => rw [List.dropWhile_cons, ht a (by simp)]; rfl
  unfold strip
  rw [key s h, key _ (by simpa using h), List.reverse_reverse]

/-- Typing a number in decimal notation, also with a sign, gives that number. -/
theorem C160_typed (n : ℕ) : Spec.num ⟨Spec.decimal n, true⟩ = some n ∧ Spec.num ⟨'-' :: Spec.decimal n, true⟩ = some (-n : ℤ) := by
  obtain ⟨hne, hc⟩ := decimal_chars n
  have hb : ∀ c ∈ Spec.decimal n, blank c = false := fun c hm => by
    obtain ⟨d, rfl⟩ := hc c hm
    exact (digit_char d).2.2.2.2.2
  have hs := strip_nonblank _ hb
  have hs' : strip ('-' :: Spec.decimal n) = '-' :: Spec.decimal n := strip_nonblank _ (by
    intro c hm
    rcases List.mem_cons.1 hm with rfl | hm
    · rfl
    · exact hb c hm)
  constructor
  · unfold Spec.num pyInt
    rw [hs]
    cases hl : Spec.decimal n with
    | nil => exact absurd hl hne
    | cons c r =>
      obtain ⟨d, rfl⟩ := hc c (by rw [hl]; simp)
      have h1 := (digit_char d).2.2.2
      split
      · rename_i e; exact absurd (List.cons.inj e).1 h1.1
      · rename_i e; exact absurd (List.cons.inj e).1 h1.2.1
      · rw [← hl, number_decimal]; rfl
  · unfold Spec.num pyInt
    rw [hs']
    simp only [number_decimal]
    rfl

/-- Accepting a negative number, and text that is no number, with two combinations; two numbers rejected, a text, and the third number. -/
example : (poll ["a", "b"] none [⟨" -1 ".toList, true⟩]).2 = .returned (-1) ∧ (poll ["a", "b"] none [⟨"x".toList, true⟩]).2 = .unboundLocal ∧
    (poll ["a", "b"] none [⟨"2".toList, true⟩]).2 = .indexError ∧
    poll ["a", "b"] none [⟨"0".toList, false⟩, ⟨"one".toList, true⟩, ⟨"+1".toList, true⟩] =
      ([.selected 0 "a", .unknown 0, .selected 1 "b"], .returned 1) := by decide

end Verif.Poll
