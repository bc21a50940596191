import Verif.Select.Model
import Verif.Store.C72
import Mathlib.Tactic.Ring
/-! # Properties C52, C53, C77 and C78: selection and loading of model files, names of TAR tables -/
namespace Verif.Select
open Verif.Inlist (Str)
open Verif.Store (dec decNat)

namespace Spec
/-- A number with its sign, also when it is positive. -/
def signed (n : ℤ) : Str := (if 0 ≤ n then '+' else '-') :: decNat n.natAbs
/-- The tag is nowhere followed by a digit. -/
def NoTag (d : Digits) (tag s : Str) : Prop := ∀ a c r, s = a ++ tag ++ c :: r → d.is c = false
/-- The string does not start with a digit. -/
def NoDigit (d : Digits) (s : Str) : Prop := ∀ c, s.head? = some c → d.is c = false
/-- The name of the type of mode. -/
def modeString (g : Bool) : Str := if g then "g_mode".toList else "p_mode".toList
/-- The additional substrings are in the name. -/
def ExtraIn (name : Str) (i : ℕ) : Extra → Prop
  | .none => True
  | .str s => s <:+: name
  | .list l => ∃ s, l[i]? = some s ∧ s <:+: name
  | .tuple l => ∀ s ∈ l, s <:+: name
/-- A list of additional substrings has an element for the mode. -/
def ExtraFor (i : ℕ) : Extra → Prop
  | .list l => i < l.length
  | _ => True
/-- The additional substrings of a structure file, given as nothing, a list or a tuple, are all in its name. -/
def AllIn (name : Str) : Extra → Prop
  | .none => True
  | .str _ => False
  | .list l => ∀ s ∈ l, s <:+: name
  | .tuple l => ∀ s ∈ l, s <:+: name
/-- The table of GYRE for azimuthal order m and index k. -/
def gyreTable (base : Str) (m k : ℤ) : Str := base ++ "/data/tar/tar_fit.m".toList ++ signed m ++ ".k".toList ++ signed k ++ ".h5".toList
/-- Parts of a file name of a mode: the tagged numbers l, m and n, in this order, with anything around them that does not
look like one of them. -/
structure Named (d : Digits) (a b c e : Str) : Prop where
  line : '\n' ∉ a ∧ '\n' ∉ b ∧ '\n' ∉ c ∧ '\n' ∉ e
  l : NoTag d ['l'] b ∧ NoTag d ['l'] c ∧ NoTag d ['l'] e
  m : ∀ s, s = '+' ∨ s = '|' ∨ s = '-' → NoTag d ['m', s] c ∧ NoTag d ['m', s] e
  n : NoTag d ['n', '+'] e
  start : NoDigit d b ∧ NoDigit d c ∧ NoDigit d e
/-- The name made of the parts. -/
def modeName (a b c e : Str) (l : ℕ) (m : ℤ) (n : ℕ) : Str :=
  a ++ 'l' :: decNat l ++ b ++ 'm' :: signed m ++ c ++ 'n' :: '+' :: decNat n ++ e
end Spec
open Spec

/-! ## Regular expressions -/

/-- No match at any position. -/
def Quiet {β : Type} (k : Str → Option β) (t : Str) : Prop := ∀ a r, t = a ++ r → k r = none

theorem quiet_cons {β : Type} {k : Str → Option β} {x : Char} {t : Str} (h : k (x :: t) = none) (ht : Quiet k t) : Quiet k (x :: t) := by
  intro a r e
  cases a with
  | nil => rw [List.nil_append] at e; rw [← e]; exact h
  | cons y a => exact ht a r (List.cons.inj e).2

theorem quiet_nil {β : Type} {k : Str → Option β} (h : k [] = none) : Quiet k [] := by
  intro a r e
  obtain ⟨_, rfl⟩ := List.append_eq_nil_iff.1 e.symm
  exact h

theorem star_none {β : Type} (k : Str → Option β) : ∀ s, Quiet k s → greedyStar k s = none
  | [], h => h [] [] rfl
  | x :: xs, h => by
    have h1 := star_none k xs fun a r e => h (x :: a) r (by rw [e]; rfl)
    rw [greedyStar, h1]
    simp [h [] (x :: xs) rfl]

theorem star_some {β : Type} (k : Str → Option β) (x : Char) (t : Str) (b : β) (h : k (x :: t) = some b) (ht : Quiet k t) :
    ∀ a, '\n' ∉ a → greedyStar k (a ++ x :: t) = some b
  | [], _ => by
    rw [List.nil_append, greedyStar, star_none k t ht]
    simp [h]
  | y :: a, ha => by
    have hy : y ≠ '\n' := fun e => ha (by simp [e])
    rw [List.cons_append, greedyStar, if_neg hy, star_some k x t b h ht a fun e => ha (by simp [e])]

theorem star_isSome {β : Type} (k : Str → Option β) : ∀ s, (greedyStar k s).isSome = true ↔ ∃ a r, s = a ++ r ∧ '\n' ∉ a ∧ (k r).isSome = true
  | [] => by
    rw [greedyStar]
    exact ⟨fun h => ⟨[], [], rfl, by simp, h⟩, fun ⟨a, r, e, _, h⟩ => by
      obtain ⟨_, rfl⟩ := List.append_eq_nil_iff.1 e.symm; exact h⟩
  | x :: xs => by
    have ih := star_isSome k xs
    rw [greedyStar]
    constructor
    · intro h
      split at h
      · next b hb =>
        by_cases hx : x = '\n'
        · simp [hx] at hb
        · rw [if_neg hx] at hb
          obtain ⟨a, r, e, ha, hr⟩ := ih.1 (by rw [hb]; rfl)
          exact ⟨x :: a, r, by rw [e]; rfl, by simp [ha, Ne.symm hx], hr⟩
      · exact ⟨[], x :: xs, rfl, by simp, h⟩
    · rintro ⟨a, r, e, ha, hr⟩
      cases a with
      | nil =>
        rw [List.nil_append] at e
        split
        · rfl
        · rw [e]; exact hr
      | cons y a =>
        obtain ⟨h0, e⟩ := List.cons.inj e
        subst h0
        have hx : x ≠ '\n' := fun h => ha (by simp [h])
        have h1 := ih.2 ⟨a, r, (List.cons.inj ‹x :: xs = x :: a ++ r›).2, fun h => ha (by simp [h]), hr⟩
        rw [if_neg hx]
        split
        · rfl
        · next h => rw [h] at h1; cases h1

/-! ## Digits -/

theorem digit_val (d : Digits) : ∀ v < 10, d.val (Nat.digitChar v) = some v := by
  intro v hv
  have h : (Nat.digitChar v).toNat < 128 ∧ (Nat.digitChar v).isDigit = true ∧ (Nat.digitChar v).toNat - 48 = v := by
    revert v; decide
  rw [d.ascii _ h.1, if_pos h.2.1, h.2.2]

theorem int_foldl (d : Digits) : ∀ (l : List ℕ), (∀ v ∈ l, v < 10) → ∀ a,
    (l.map Nat.digitChar).foldl (fun a c => 10 * a + (d.val c).getD 0) a = l.foldl (fun a v => 10 * a + v) a
  | [], _, _ => rfl
  | v :: l, h, a => by
    rw [List.map_cons, List.foldl_cons, List.foldl_cons, digit_val d v (h v (by simp))]
    exact int_foldl d l (fun w hw => h w (by simp [hw])) _

theorem int_decNat (d : Digits) (n : ℕ) : d.int (decNat n) = n := by
  unfold decNat
  split
  · next h =>
    have := digit_val d 0 (by norm_num)
    have e : Nat.digitChar 0 = '0' := rfl
    rw [e] at this
    simp [Digits.int, this, h]
  · unfold Digits.int
    rw [int_foldl d _ fun v hv => Nat.digits_lt_base (by norm_num) (List.mem_reverse.1 hv)]
    rw [List.foldl_reverse]
    have : ∀ l : List ℕ, l.foldr (fun v a => 10 * a + v) 0 = Nat.ofDigits 10 l := by
      intro l
      induction l with
      | nil => rfl
      | cons a l ih => rw [List.foldr_cons, ih, Nat.ofDigits_cons]; omega
    rw [this, Nat.ofDigits_digits]

theorem decNat_digit (d : Digits) (n : ℕ) : ∀ c ∈ decNat n, d.is c = true := by
  intro c hc
  unfold decNat at hc
  split at hc
  · simp only [List.mem_singleton] at hc
    have := digit_val d 0 (by norm_num)
    have e : Nat.digitChar 0 = '0' := rfl
    rw [hc, Digits.is, ← e, this]; rfl
  · obtain ⟨v, hv, rfl⟩ := List.mem_map.1 hc
    rw [Digits.is, digit_val d v (Nat.digits_lt_base (by norm_num) (List.mem_reverse.1 hv))]; rfl

theorem decNat_ne (n : ℕ) : decNat n ≠ [] := by
  unfold decNat
  split
  · simp
  · next h => simp [Nat.digits_ne_nil_iff_ne_zero.2 h]

theorem nonDigit (d : Digits) (c : Char) (h : c.toNat < 128) (h' : c.isDigit = false) : d.is c = false := by
  rw [Digits.is, d.ascii c h, h']; rfl

theorem digitsAt_none (d : Digits) (s : Str) (h : NoDigit d s) : digitsAt d s = none := by
  unfold digitsAt
  cases s with
  | nil => simp
  | cons c s => simp [h c rfl]

theorem takeWhile_self {p : Char → Bool} {l : Str} (h : ∀ c ∈ l, p c = true) : l.takeWhile p = l := by
  induction l with
  | nil => rfl
  | cons a l ih => rw [List.takeWhile_cons, h a (by simp), if_pos rfl, ih fun c hc => h c (by simp [hc])]

theorem digitsAt_dec (d : Digits) (n : ℕ) (s : Str) (h : NoDigit d s) : digitsAt d (decNat n ++ s) = some n := by
  have e : (decNat n ++ s).takeWhile d.is = decNat n := by
    cases s with
    | nil => rw [List.append_nil]; exact takeWhile_self (decNat_digit d n)
    | cons c s => exact (Verif.Store.takeWhile_all _ _ _ (decNat_digit d n) (h c rfl)).1
  unfold digitsAt
  rw [e, if_neg (decNat_ne n), int_decNat]

/-! ## Positions without a match -/

/-- A character at which no match starts. -/
def Dull {β : Type} (k : Str → Option β) (x : Char) : Prop := ∀ t, k (x :: t) = none

theorem quiet_dull {β : Type} {k : Str → Option β} (u t : Str) (hu : ∀ x ∈ u, Dull k x) (ht : Quiet k t) : Quiet k (u ++ t) := by
  induction u with
  | nil => exact ht
  | cons x u ih => exact quiet_cons (hu x (by simp) _) (ih fun y hy => hu y (by simp [hy]))

theorem lAt_dull (d : Digits) {x : Char} (h : x ≠ 'l') : Dull (lAt d) x := by
  intro t; unfold lAt; split
  · next e => exact absurd (List.cons.inj e).1 h
  · rfl
theorem mAt_dull (d : Digits) {x : Char} (h : x ≠ 'm') : Dull (mAt d) x := by
  intro t; unfold mAt; split
  · next e => exact absurd (List.cons.inj e).1 h
  · rfl
theorem nAt_dull (d : Digits) {x : Char} (h : x ≠ 'n') : Dull (nAt d) x := by
  intro t; unfold nAt; split
  · next e => exact absurd (List.cons.inj e).1 h
  · rfl

theorem decNat_char (n : ℕ) : ∀ c ∈ decNat n, c ≠ 'l' ∧ c ≠ 'm' ∧ c ≠ 'n' ∧ c ≠ '\n' := by
  have key : ∀ v < 10, Nat.digitChar v ≠ 'l' ∧ Nat.digitChar v ≠ 'm' ∧ Nat.digitChar v ≠ 'n' ∧ Nat.digitChar v ≠ '\n' := by decide
  intro c hc
  unfold decNat at hc
  split at hc
  · simp only [List.mem_singleton] at hc; rw [hc]; decide
  · obtain ⟨v, hv, rfl⟩ := List.mem_map.1 hc
    exact key v (Nat.digits_lt_base (by norm_num) (List.mem_reverse.1 hv))

theorem noTag_tail {d : Digits} {tag b : Str} {x : Char} (h : NoTag d tag (x :: b)) : NoTag d tag b :=
  fun a c r e => h (x :: a) c r (by rw [e]; rfl)

theorem quiet_l (d : Digits) (b t : Str) (hb : NoTag d ['l'] b) (ht : Quiet (lAt d) t) (hs : NoDigit d t) : Quiet (lAt d) (b ++ t) := by
  induction b with
  | nil => exact ht
  | cons x b ih =>
    refine quiet_cons ?_ (ih (noTag_tail hb))
    by_cases hx : x = 'l'
    · subst hx
      show (digitsAt d (b ++ t)).map _ = none
      rw [digitsAt_none]; rfl
      cases b with
      | nil => exact hs
      | cons c b => intro c' e; cases e; exact hb [] c b rfl
    · exact lAt_dull d hx _

theorem quiet_n (d : Digits) (b t : Str) (hb : NoTag d ['n', '+'] b) (ht : Quiet (nAt d) t) (hs : NoDigit d t) (hp : t.head? ≠ some '+') :
    Quiet (nAt d) (b ++ t) := by
  induction b with
  | nil => exact ht
  | cons x b ih =>
    refine quiet_cons ?_ (ih (noTag_tail hb))
    cases b with
    | nil =>
      unfold nAt; split
      · next e =>
        have e : t = _ := (List.cons.inj e).2
        rw [e] at hp; exact absurd rfl hp
      · rfl
    | cons y b =>
      unfold nAt; split
      · next r e =>
        have hx : x = 'n' := (List.cons.inj e).1
        have hy : y = '+' := (List.cons.inj (List.cons.inj e).2).1
        have hr : b ++ t = r := (List.cons.inj (List.cons.inj e).2).2
        rw [hx, hy] at hb
        rw [← hr]
        rw [digitsAt_none]; rfl
        cases b with
        | nil => exact hs
        | cons c b => intro c' e'; cases e'; exact hb [] c b rfl
      · rfl

theorem quiet_m (d : Digits) (b t : Str) (hb : ∀ s, s = '+' ∨ s = '|' ∨ s = '-' → NoTag d ['m', s] b) (ht : Quiet (mAt d) t) (hs : NoDigit d t)
    (hp : ∀ s, t.head? = some s → s ≠ '+' ∧ s ≠ '|' ∧ s ≠ '-') : Quiet (mAt d) (b ++ t) := by
  induction b with
  | nil => exact ht
  | cons x b ih =>
    refine quiet_cons ?_ (ih fun s h => noTag_tail (hb s h))
    cases b with
    | nil =>
      unfold mAt; split
      · next c r e =>
        have e : t = _ := (List.cons.inj e).2
        have := hp c (by rw [e]; rfl)
        simp [this.1, this.2.1, this.2.2]
      · rfl
    | cons y b =>
      unfold mAt; split
      · next c r e =>
        have hx : x = 'm' := (List.cons.inj e).1
        have hy : y = c := (List.cons.inj (List.cons.inj e).2).1
        have hr : b ++ t = r := (List.cons.inj (List.cons.inj e).2).2
        rw [hx] at hb
        rw [← hr, ← hy]
        by_cases hc : y = '+' ∨ y = '|' ∨ y = '-'
        · have h0 : digitsAt d (b ++ t) = none := by
            refine digitsAt_none d _ ?_
            cases b with
            | nil => exact hs
            | cons c b => intro c' e'; cases e'; exact hb y hc [] c b rfl
          simp only [h0, Option.map_none, ite_self]
        · push Not at hc
          simp [hc.1, hc.2.1, hc.2.2]
      · rfl

/-! ## The numbers read from a name -/

theorem noDigit_cons (d : Digits) (c : Char) (r : Str) (h : d.is c = false) : NoDigit d (c :: r) := by
  intro c' e; cases e; exact h

theorem noDigit_append (d : Digits) (b t : Str) (hb : NoDigit d b) (ht : NoDigit d t) : NoDigit d (b ++ t) := by
  cases b with
  | nil => exact ht
  | cons x b => intro c e; cases e; exact hb x rfl

theorem nd_m (d : Digits) (r : Str) : NoDigit d ('m' :: r) := noDigit_cons d _ _ (nonDigit d 'm' (by decide) (by decide))
theorem nd_n (d : Digits) (r : Str) : NoDigit d ('n' :: r) := noDigit_cons d _ _ (nonDigit d 'n' (by decide) (by decide))
theorem nd_nil (d : Digits) : NoDigit d [] := by intro c e; cases e

theorem signed_char (m : ℤ) : ∀ c ∈ signed m, c ≠ 'l' ∧ c ≠ 'm' ∧ c ≠ 'n' ∧ c ≠ '\n' := by
  intro c hc
  rcases List.mem_cons.1 hc with h | h
  · rw [h]; split <;> decide
  · exact decNat_char _ c h

theorem nAt_name (d : Digits) (a b c e : Str) (h : Named d a b c e) (l : ℕ) (m : ℤ) (n : ℕ) :
    greedyStar (nAt d) (modeName a b c e l m n) = some (n : ℤ) := by
  have eq : modeName a b c e l m n = (a ++ 'l' :: decNat l ++ b ++ 'm' :: signed m ++ c) ++ 'n' :: ('+' :: (decNat n ++ e)) := by
    simp [modeName]
  rw [eq]
  have qe : Quiet (nAt d) e := by
    have := quiet_n d e [] h.n (quiet_nil rfl) (nd_nil d) (by simp)
    rwa [List.append_nil] at this
  refine star_some _ _ _ _ ?_ ?_ _ ?_
  · show (digitsAt d (decNat n ++ e)).map Nat.cast = _
    rw [digitsAt_dec d n e h.start.2.2]; rfl
  · exact quiet_cons (nAt_dull d (by decide) _) (quiet_dull _ _ (fun x hx => nAt_dull d (decNat_char n x hx).2.2.1) qe)
  · simp only [List.mem_append, List.mem_cons, not_or]
    exact ⟨⟨⟨⟨h.line.1, by decide, fun h' => (decNat_char l _ h').2.2.2 rfl⟩, h.line.2.1⟩, by decide, fun h' => (signed_char m _ h').2.2.2 rfl⟩, h.line.2.2.1⟩

theorem mAt_name (d : Digits) (a b c e : Str) (h : Named d a b c e) (l : ℕ) (m : ℤ) (n : ℕ) :
    greedyStar (mAt d) (modeName a b c e l m n) = some m := by
  have eq : modeName a b c e l m n = (a ++ 'l' :: decNat l ++ b) ++ 'm' :: (signed m ++ (c ++ 'n' :: ('+' :: (decNat n ++ e)))) := by
    simp [modeName]
  rw [eq]
  have qe : Quiet (mAt d) e := by
    have := quiet_m d e [] (fun s hs => (h.m s hs).2) (quiet_nil rfl) (nd_nil d) (by simp)
    rwa [List.append_nil] at this
  have q1 : Quiet (mAt d) ('n' :: ('+' :: (decNat n ++ e))) :=
    quiet_cons (mAt_dull d (by decide) _) (quiet_cons (mAt_dull d (by decide) _)
      (quiet_dull _ _ (fun x hx => mAt_dull d (decNat_char n x hx).2.1) qe))
  have q2 := quiet_m d c _ (fun s hs => (h.m s hs).1) q1 (nd_n d _) (by intro s e; cases e; decide)
  refine star_some _ _ _ _ ?_ (quiet_dull _ _ (fun x hx => mAt_dull d (signed_char m x hx).2.1) q2) _ ?_
  · have e3 : digitsAt d (decNat m.natAbs ++ (c ++ 'n' :: ('+' :: (decNat n ++ e)))) = some m.natAbs :=
      digitsAt_dec d _ _ (noDigit_append d _ _ h.start.2.1 (nd_n d _))
    unfold signed
    by_cases hm : 0 ≤ m
    · rw [if_pos hm]
      simp only [List.cons_append, mAt, if_true, e3, Option.map_some]
      simp [abs_of_nonneg hm]
    · rw [if_neg hm]
      simp only [List.cons_append, mAt, e3, Option.map_some]
      rw [if_neg (by decide), if_pos (by decide)]
      congr 1; push_cast; rw [abs_of_neg (by omega)]; ring
  · simp only [List.mem_append, List.mem_cons, not_or]
    exact ⟨⟨h.line.1, by decide, fun h' => (decNat_char l _ h').2.2.2 rfl⟩, h.line.2.1⟩

theorem lAt_name (d : Digits) (a b c e : Str) (h : Named d a b c e) (l : ℕ) (m : ℤ) (n : ℕ) :
    greedyStar (lAt d) (modeName a b c e l m n) = some (l : ℤ) := by
  have eq : modeName a b c e l m n = a ++ 'l' :: (decNat l ++ (b ++ 'm' :: (signed m ++ (c ++ 'n' :: ('+' :: (decNat n ++ e)))))) := by
    simp [modeName]
  rw [eq]
  have qe : Quiet (lAt d) e := by
    have := quiet_l d e [] h.l.2.2 (quiet_nil rfl) (nd_nil d)
    rwa [List.append_nil] at this
  have q1 : Quiet (lAt d) ('n' :: ('+' :: (decNat n ++ e))) :=
    quiet_cons (lAt_dull d (by decide) _) (quiet_cons (lAt_dull d (by decide) _)
      (quiet_dull _ _ (fun x hx => lAt_dull d (decNat_char n x hx).1) qe))
  have q2 := quiet_l d c _ h.l.2.1 q1 (nd_n d _)
  have q3 := quiet_l d b _ h.l.1 (quiet_cons (lAt_dull d (by decide : 'm' ≠ 'l') _)
    (quiet_dull _ _ (fun x hx => lAt_dull d (signed_char m x hx).1) q2)) (nd_m d _)
  refine star_some _ _ _ _ ?_ (quiet_dull _ _ (fun x hx => lAt_dull d (decNat_char l x hx).1) q3) _ h.line.1
  show (digitsAt d _).map Nat.cast = _
  rw [digitsAt_dec d l _ (noDigit_append d _ _ h.start.1 (nd_m d _))]; rfl

theorem mode_name (g : Bool) (name : Str) (hn : '\n' ∉ name) : (greedyStar (modeAt g) name).isSome = true ↔ modeString g <:+: name := by
  have key : ∀ s : Str, (modeAt g s).isSome = true ↔ modeString g <+: s := by
    intro s
    have e1 : "g_mode".toList = ['g', '_', 'm', 'o', 'd', 'e'] := by decide
    have e2 : "p_mode".toList = ['p', '_', 'm', 'o', 'd', 'e'] := by decide
    unfold modeAt modeString
    rw [e1, e2]
    split <;> simp_all
  rw [star_isSome]
  constructor
  · rintro ⟨a, r, rfl, _, h⟩
    obtain ⟨t, rfl⟩ := (key r).1 h
    exact ⟨a, t, by simp⟩
  · rintro ⟨a, t, rfl⟩
    exact ⟨a, modeString g ++ t, by simp, fun h => hn (by simp [h]), (key _).2 ⟨t, rfl⟩⟩

/-- The outcome of the tests when the three numbers are read. -/
theorem checks_eq (d : Digits) (R : Request) (name : Str) (i : ℕ) (g : Bool) {l m n wl wm wn : ℤ} (hn : '\n' ∉ name)
    (hl : greedyStar (lAt d) name = some l) (hm : greedyStar (mAt d) name = some m) (hr : greedyStar (nAt d) name = some n)
    (ql : R.l[i]? = some wl) (qm : R.m[i]? = some wm) (qn : R.n[i]? = some wn) :
    ∃ b, checks d R name i g = some b ∧ (b = true ↔ wl = l ∧ wm = m ∧ wn = n ∧ modeString g <:+: name) := by
  rw [← mode_name g name hn]
  unfold checks check
  simp only [hl, hm, hr, ql, qm, qn, Option.bind_eq_bind, Option.bind_some]
  by_cases h1 : l = wl
  · by_cases h2 : m = wm
    · by_cases h3 : n = wn
      · subst h1 h2 h3; simp
      · simp [h1, h2, h3, Ne.symm h3]
    · simp [h1, h2, Ne.symm h2]
  · simp [h1, Ne.symm h1]

theorem select_eq (d : Digits) (R : Request) (name : Str) (extra : Extra) (i : ℕ) (g : Bool) (he : ExtraFor i extra) (P : Prop)
    (h : ∃ b, checks d R name i g = some b ∧ (b = true ↔ P)) :
    ∃ b, modeSelect d R name extra i g = some b ∧ (b = true ↔ ExtraIn name i extra ∧ P) := by
  obtain ⟨b, hb, hP⟩ := h
  cases extra with
  | none => exact ⟨b, hb, by simp [ExtraIn, hP]⟩
  | str s =>
    by_cases hs : s <:+: name
    · exact ⟨b, by rw [modeSelect, if_pos hs, hb], by simp [ExtraIn, hs, hP]⟩
    · exact ⟨false, by rw [modeSelect, if_neg hs], by simp [ExtraIn, hs]⟩
  | list l =>
    have hi : i < l.length := he
    have e : l[i]? = some l[i] := List.getElem?_eq_getElem hi
    by_cases hs : l[i] <:+: name
    · exact ⟨b, by simp only [modeSelect, e, if_pos hs, hb], by simp [ExtraIn, e, hs, hP]⟩
    · exact ⟨false, by simp only [modeSelect, e, if_neg hs], by simp [ExtraIn, e, hs]⟩
  | tuple l =>
    by_cases hs : ∀ s ∈ l, s <:+: name
    · exact ⟨b, by rw [modeSelect, if_pos hs, hb], by simp only [ExtraIn]; tauto⟩
    · exact ⟨false, by rw [modeSelect, if_neg hs], by simp [ExtraIn, hs]⟩

theorem name_line (d : Digits) (a b c e : Str) (h : Named d a b c e) (l : ℕ) (m : ℤ) (n : ℕ) : '\n' ∉ modeName a b c e l m n := by
  simp only [modeName, List.mem_append, List.mem_cons, not_or]
  exact ⟨⟨⟨⟨⟨⟨h.line.1, by decide, fun h' => (decNat_char l _ h').2.2.2 rfl⟩, h.line.2.1⟩, by decide, fun h' => (signed_char m _ h').2.2.2 rfl⟩,
    h.line.2.2.1⟩, by decide, by decide, fun h' => (decNat_char n _ h').2.2.2 rfl⟩, h.line.2.2.2⟩

/-- A file whose name has the tagged numbers l, m and n, and no other parts that look like them after the tags, is selected
for a mode exactly when the numbers are those asked for, the type of mode is in the name, and so are the additional
substrings. -/
theorem C52_selected_partial (d : Digits) (R : Request) (extra : Extra) (i : ℕ) (g : Bool) (a b c e : Str) (h : Named d a b c e) (l : ℕ) (m : ℤ) (n : ℕ)
    {wl wm wn : ℤ} (ql : R.l[i]? = some wl) (qm : R.m[i]? = some wm) (qn : R.n[i]? = some wn) (he : ExtraFor i extra) :
    ∃ s, modeSelect d R (modeName a b c e l m n) extra i g = some s ∧
      (s = true ↔ ExtraIn (modeName a b c e l m n) i extra ∧ wl = l ∧ wm = m ∧ wn = n ∧ modeString g <:+: modeName a b c e l m n) :=
  select_eq d R _ extra i g he _ (checks_eq d R _ i g (name_line d a b c e h l m n) (lAt_name d a b c e h l m n) (mAt_name d a b c e h l m n)
    (nAt_name d a b c e h l m n) ql qm qn)

theorem noTag_of (d : Digits) (tag s : Str) (x : Char) (hx : x ∈ tag) (hs : x ∉ s) : NoTag d tag s := by
  intro a c r e
  exact absurd (by rw [e]; simp [hx]) hs

theorem named_h5 (d : Digits) (pre : Str) (hp : '\n' ∉ pre) : Named d pre [] [] ".h5".toList := by
  have e : ".h5".toList = ['.', 'h', '5'] := by decide
  rw [e]
  refine ⟨⟨hp, by decide, by decide, by decide⟩, ⟨?_, ?_, ?_⟩, fun s _ => ⟨?_, ?_⟩, ?_, nd_nil d, nd_nil d,
    noDigit_cons d _ _ (nonDigit d _ (by decide) (by decide))⟩
  · exact noTag_of d _ _ 'l' (by simp) (by decide)
  · exact noTag_of d _ _ 'l' (by simp) (by decide)
  · exact noTag_of d _ _ 'l' (by simp) (by decide)
  · exact noTag_of d _ _ 'm' (by simp) (by decide)
  · exact noTag_of d _ _ 'm' (by simp) (by decide)
  · exact noTag_of d _ _ 'n' (by simp) (by decide)

/-- For names of the usual form, `<anything>_g_mode_l<l>m<±m>n+<n>.h5`, whatever comes first: such a file is selected for a g
mode exactly when the numbers are those asked for. -/
theorem C52_usual (d : Digits) (R : Request) (i : ℕ) (pre : Str) (hp : '\n' ∉ pre) (l : ℕ) (m : ℤ) (n : ℕ)
    {wl wm wn : ℤ} (ql : R.l[i]? = some wl) (qm : R.m[i]? = some wm) (qn : R.n[i]? = some wn) :
    ∃ s, modeSelect d R (pre ++ "_g_mode_l".toList ++ decNat l ++ "m".toList ++ signed m ++ "n+".toList ++ decNat n ++ ".h5".toList)
      .none i true = some s ∧ (s = true ↔ wl = l ∧ wm = m ∧ wn = n) := by
  have e1 : "_g_mode_l".toList = "_g_mode_".toList ++ ['l'] := by decide
  have e2 : "m".toList = ['m'] := by decide
  have e3 : "n+".toList = ['n', '+'] := by decide
  have hq : '\n' ∉ pre ++ "_g_mode_".toList := by
    intro h; rcases List.mem_append.1 h with h | h
    · exact hp h
    · revert h; decide
  have eq : pre ++ "_g_mode_l".toList ++ decNat l ++ "m".toList ++ signed m ++ "n+".toList ++ decNat n ++ ".h5".toList =
      modeName (pre ++ "_g_mode_".toList) [] [] ".h5".toList l m n := by rw [e1, e2, e3]; simp [modeName]
  obtain ⟨s, hs, h⟩ := C52_selected_partial d R .none i true _ _ _ _ (named_h5 d _ hq) l m n ql qm qn trivial
  refine ⟨s, by rw [eq]; exact hs, h.trans ?_⟩
  have : modeString true <:+: modeName (pre ++ "_g_mode_".toList) [] [] ".h5".toList l m n := by
    have e4 : "_g_mode_".toList = '_' :: ("g_mode".toList ++ ['_']) := by decide
    refine ⟨pre ++ ['_'], '_' :: 'l' :: decNat l ++ 'm' :: signed m ++ 'n' :: '+' :: decNat n ++ ".h5".toList, ?_⟩
    rw [e4]; simp [modeName, modeString]
  simp only [ExtraIn, true_and, this, and_true]

/-- A number later in the name that stands after a letter l, as in `_model12`, is taken for the degree: the file
of a mode of degree l is selected for degree 12, and for its own degree only if that is 12. -/
theorem C52_later_number_wrong (d : Digits) (R : Request) (i : ℕ) (pre : Str) (hp : '\n' ∉ pre) (l : ℕ) (m : ℤ) (n j : ℕ)
    {wl wm wn : ℤ} (ql : R.l[i]? = some wl) (qm : R.m[i]? = some wm) (qn : R.n[i]? = some wn) :
    ∃ s, modeSelect d R (pre ++ "_g_mode_l".toList ++ decNat l ++ "m".toList ++ signed m ++ "n+".toList ++ decNat n ++ "_model".toList ++ decNat j ++
        ".h5".toList) .none i true = some s ∧ (s = true ↔ wl = j ∧ wm = m ∧ wn = n) := by
  have e1 : "_g_mode_l".toList = "_g_mode_".toList ++ ['l'] := by decide
  have e2 : "m".toList = ['m'] := by decide
  have e3 : "n+".toList = ['n', '+'] := by decide
  have e5 : "_model".toList = "_mode".toList ++ ['l'] := by decide
  have eh : ".h5".toList = ['.', 'h', '5'] := by decide
  have em : "_mode".toList = ['_', 'm', 'o', 'd', 'e'] := by decide
  have hq : '\n' ∉ pre ++ "_g_mode_".toList := by
    intro h; rcases List.mem_append.1 h with h | h
    · exact hp h
    · revert h; decide
  generalize hname : pre ++ "_g_mode_l".toList ++ decNat l ++ "m".toList ++ signed m ++ "n+".toList ++ decNat n ++ "_model".toList ++ decNat j ++
        ".h5".toList = name
  have nd : NoDigit d ".h5".toList := by rw [eh]; exact noDigit_cons d _ _ (nonDigit d _ (by decide) (by decide))
  have hd : ∀ x ∈ ".h5".toList, x ≠ 'l' ∧ x ≠ 'm' ∧ x ≠ 'n' := by decide
  have hl : greedyStar (lAt d) name = some (j : ℤ) := by
    have eq : name = (pre ++ "_g_mode_l".toList ++ decNat l ++ "m".toList ++ signed m ++ "n+".toList ++ decNat n ++ "_mode".toList) ++
        'l' :: (decNat j ++ ".h5".toList) := by rw [← hname, e5]; simp
    rw [eq]
    refine star_some _ _ _ _ ?_ (quiet_dull _ _ (fun x hx => lAt_dull d (decNat_char j x hx).1)
      (by
        have := quiet_dull (k := lAt d) ".h5".toList [] (fun x hx => lAt_dull d (hd x hx).1) (quiet_nil rfl)
        rwa [List.append_nil] at this)) _ ?_
    · show (digitsAt d _).map Nat.cast = _
      rw [digitsAt_dec d j _ nd]; rfl
    · rw [e1, e2, e3]
      simp only [List.mem_append, not_or]
      refine ⟨⟨⟨⟨⟨⟨⟨hp, by decide, by decide⟩, fun h' => (decNat_char l _ h').2.2.2 rfl⟩, by decide⟩, fun h' => (signed_char m _ h').2.2.2 rfl⟩,
        by decide⟩, fun h' => (decNat_char n _ h').2.2.2 rfl⟩, by decide⟩
  have hN : name = (pre ++ "_g_mode_l".toList ++ decNat l ++ "m".toList ++ signed m) ++ 'n' :: ('+' :: (decNat n ++ ("_model".toList ++ decNat j ++
      ".h5".toList))) := by rw [← hname, e3]; simp
  have nd2 : NoDigit d ("_model".toList ++ decNat j ++ ".h5".toList) := by
    rw [e5, em]; exact noDigit_cons d _ _ (nonDigit d _ (by decide) (by decide))
  have hlm : '\n' ∉ pre ++ "_g_mode_l".toList ++ decNat l := by
    rw [e1]; simp only [List.mem_append, not_or]
    exact ⟨⟨hp, by decide, by decide⟩, fun h' => (decNat_char l _ h').2.2.2 rfl⟩
  have hm' : '\n' ∉ pre ++ "_g_mode_l".toList ++ decNat l ++ "m".toList ++ signed m := by
    rw [e2]; simp only [List.mem_append, not_or] at hlm ⊢
    exact ⟨⟨hlm, by decide⟩, fun h' => (signed_char m _ h').2.2.2 rfl⟩
  have hr : greedyStar (nAt d) name = some (n : ℤ) := by
    rw [hN]
    refine star_some _ _ _ _ ?_ (quiet_cons (nAt_dull d (by decide) _) (quiet_dull _ _ (fun x hx => nAt_dull d (decNat_char n x hx).2.2.1) ?_)) _ hm'
    · show (digitsAt d _).map Nat.cast = _
      rw [digitsAt_dec d n _ nd2]; rfl
    · rw [List.append_assoc]
      refine quiet_dull _ _ (fun x hx => nAt_dull d ?_) (quiet_dull _ _ (fun x hx => nAt_dull d (decNat_char j x hx).2.2.1) ?_)
      · revert x; decide
      · have := quiet_dull (k := nAt d) ".h5".toList [] (fun x hx => nAt_dull d (hd x hx).2.2) (quiet_nil rfl)
        rwa [List.append_nil] at this
  have hm : greedyStar (mAt d) name = some m := by
    have eq : name = (pre ++ "_g_mode_l".toList ++ decNat l) ++ 'm' :: (signed m ++ 'n' :: ('+' :: (decNat n ++ ("_model".toList ++ decNat j ++
      ".h5".toList)))) := by rw [hN, e2]; simp
    rw [eq]
    have q0 : Quiet (mAt d) (decNat j ++ ".h5".toList) := by
      refine quiet_dull _ _ (fun x hx => mAt_dull d (decNat_char j x hx).2.1) ?_
      have := quiet_dull (k := mAt d) ".h5".toList [] (fun x hx => mAt_dull d (hd x hx).2.1) (quiet_nil rfl)
      rwa [List.append_nil] at this
    have q1 : Quiet (mAt d) ("_model".toList ++ decNat j ++ ".h5".toList) := by
      have e6 : "_model".toList = ['_', 'm', 'o', 'd', 'e', 'l'] := by decide
      rw [e6, List.append_assoc]
      refine quiet_cons (mAt_dull d (by decide) _) (quiet_cons ?_ (quiet_dull ['o', 'd', 'e', 'l'] _ (fun x hx => mAt_dull d ?_) q0))
      · rfl
      · revert x; decide
    have q2 : Quiet (mAt d) ('n' :: ('+' :: (decNat n ++ ("_model".toList ++ decNat j ++ ".h5".toList)))) :=
      quiet_cons (mAt_dull d (by decide) _) (quiet_cons (mAt_dull d (by decide) _)
        (quiet_dull _ _ (fun x hx => mAt_dull d (decNat_char n x hx).2.1) q1))
    refine star_some _ _ _ _ ?_ (quiet_dull _ _ (fun x hx => mAt_dull d (signed_char m x hx).2.1) q2) _ hlm
    have e3 : digitsAt d (decNat m.natAbs ++ ('n' :: ('+' :: (decNat n ++ ("_model".toList ++ decNat j ++ ".h5".toList))))) = some m.natAbs :=
      digitsAt_dec d _ _ (nd_n d _)
    unfold signed
    by_cases hm : 0 ≤ m
    · rw [if_pos hm]
      simp only [List.cons_append, mAt, if_true, e3, Option.map_some]
      simp [abs_of_nonneg hm]
    · rw [if_neg hm]
      simp only [List.cons_append, mAt, e3, Option.map_some]
      rw [if_neg (by decide), if_pos (by decide)]
      congr 1; push_cast; rw [abs_of_neg (by omega)]; ring
  have hline : '\n' ∉ name := by
    rw [hN]; simp only [List.mem_append, List.mem_cons, not_or] at hm' ⊢
    exact ⟨hm', by decide, by decide, fun h' => (decNat_char n _ h').2.2.2 rfl, ⟨by decide, fun h' => (decNat_char j _ h').2.2.2 rfl⟩, by decide⟩
  obtain ⟨s, hs, h⟩ := checks_eq d R name i true hline hl hm hr ql qm qn
  refine ⟨s, hs, h.trans ?_⟩
  have : modeString true <:+: name := by
    have e4 : "_g_mode_l".toList = '_' :: ("g_mode".toList ++ ['_', 'l']) := by decide
    refine ⟨pre ++ ['_'], '_' :: 'l' :: decNat l ++ "m".toList ++ signed m ++ "n+".toList ++ decNat n ++ "_model".toList ++ decNat j ++ ".h5".toList, ?_⟩
    rw [← hname, e4]; simp [modeString]
  simp only [this, and_true]

/-- A file whose name has no radial order with a plus sign, as the names with negative radial orders that GYRE gives to g
modes, is selected for no mode. -/
theorem C52_negative_order_wrong (d : Digits) (R : Request) (name : Str) (extra : Extra) (i : ℕ) (g : Bool) (hn : NoTag d ['n', '+'] name) :
    modeSelect d R name extra i g ≠ some true := by
  have q : greedyStar (nAt d) name = none := star_none _ _ (by
    have := quiet_n d name [] hn (quiet_nil rfl) (nd_nil d) (by simp)
    rwa [List.append_nil] at this)
  have hc : checks d R name i g ≠ some true := by
    unfold checks
    rw [q]
    cases check (greedyStar (lAt d) name) R.l i with
    | none => simp
    | some b =>
      cases b with
      | false => simp
      | true =>
        cases check (greedyStar (mAt d) name) R.m i with
        | none => simp
        | some b => cases b <;> simp [check]
  unfold modeSelect
  split <;> (try exact hc) <;> (try split) <;> (try exact hc) <;> (try simp) <;> (try split) <;> (try exact hc) <;> simp

end Verif.Select
