import Verif.Comparer.Model
import Mathlib.Tactic.Linarith
import Mathlib.Tactic.NormNum
import Mathlib.Tactic.IntervalCases
/-!
# C157: figures of the comparison of adiabatic and non-adiabatic modes
-/
namespace Verif.Comparer
noncomputable section

/-! ### Specification -/

/-- The coordinate of a mode's points: the fractional radius given, or the enclosed mass over the mass of the star. -/
def Coordinate (radius : Bool) (d : Dict) (c : List ℝ) : Prop :=
  if radius then d "x" = some (.arr c)
  else ∃ m M, d "M_r" = some (.arr m) ∧ d "M_star" = some (.num M) ∧ c = m.map (· / M)

/-- The two curves of a panel: the adiabatic and the non-adiabatic one, each against the coordinate of its own mode. -/
def Curves (p : Panel) (ca ya cn yn : List ℝ) : Prop :=
  p.curves = [⟨.arr ca, .arr ya, some "adiabatic"⟩, ⟨.arr cn, .arr yn, some "non-adiabatic"⟩] ∧
    ca.length = ya.length ∧ cn.length = yn.length

/-- The units by their names in the GYRE files, and how they are written. -/
def unitNames : List (String × String) :=
  [("HZ", "Hz"), ("UHZ", "$\\mu$Hz"), ("CYC_PER_DAY", "d$^{-1}$"), ("RAD_PER_SEC", "rad s$^{-1}$")]

/-- The title names the adiabatic mode, both frequencies, the unit and the frame of the adiabatic one. -/
def Titled (ad nad : Dict) (t : Title) : Prop :=
  ad "l" = some t.l ∧ ad "m" = some t.m ∧ ad "n_g" = some t.n ∧ ad "freq" = some t.freqAd ∧ nad "freq" = some t.freqNad ∧
    (∃ u, ad "freq_units" = some u ∧ ∀ s, u = .text s → t.unit = (unitNames.lookup s).getD "") ∧
    ∃ s, ad "freq_frame" = some (.text s) ∧ t.frame = s.toLower

/-- A figure of the displacement `q`: real parts above, imaginary parts below. -/
def Shows (ad nad : Dict) (radius : Bool) (q reLabel imLabel : String) (f : Figure) : Prop :=
  ∃ up low ca cn ra ia rn jn t, f = [up, low] ∧ Coordinate radius ad ca ∧ Coordinate radius nad cn ∧
    ad q = some (.cplx ra ia) ∧ nad q = some (.cplx rn jn) ∧ Curves up ca ra cn rn ∧ Curves low ca ia cn jn ∧
    up.yLabel = reLabel ∧ low.yLabel = imLabel ∧ up.xLabel = none ∧
    low.xLabel = some (if radius then "r / R$_*$" else "m / M$_*$") ∧
    up.xLim = some (0, 1) ∧ low.xLim = some (0, 1) ∧ up.legend = true ∧ up.title = some t ∧ low.title = none ∧ Titled ad nad t

/-- What a pair of modes must have. -/
def Complete (radius : Bool) (ad nad : Dict) : Prop :=
  (∃ ca cn, Coordinate radius ad ca ∧ Coordinate radius nad cn ∧
    ∀ q ∈ ["xi_r", "xi_h"], ∃ ra ia rn jn, ad q = some (.cplx ra ia) ∧ nad q = some (.cplx rn jn) ∧
      ra.length = ca.length ∧ ia.length = ca.length ∧ rn.length = cn.length ∧ jn.length = cn.length) ∧
  (∀ k ∈ ["l", "m", "n_g", "freq", "freq_units"], ∃ v, ad k = some v) ∧ (∃ s, ad "freq_frame" = some (.text s)) ∧
  (∃ v, nad "freq" = some v)

/-- Mass coordinates can be computed. -/
def HasMass (d : Dict) : Prop := ∃ m M, d "M_r" = some (.arr m) ∧ d "M_star" = some (.num M)

/-! ### Lemmas -/

theorem bind_ok {α β : Type} {x : Except Err α} {f : α → Except Err β} {b : β} :
    (x >>= f) = .ok b ↔ ∃ a, x = .ok a ∧ f a = .ok b := by
  cases x with
  | error e => simp [bind, Except.bind]
  | ok a => simp [bind, Except.bind]

theorem look_ok {d : Dict} {k : String} {v : Val} : look d k = .ok v ↔ d k = some v := by
  unfold look; cases d k <;> simp

theorem massOf_ok {d : Dict} {v : Val} :
    massOf d = .ok v ↔ ∃ m M, d "M_r" = some (.arr m) ∧ d "M_star" = some (.num M) ∧ v = .arr (m.map (· / M)) := by
  unfold massOf
  simp only [bind_ok, look_ok]
  constructor
  · rintro ⟨a, ha, b, hb, h⟩
    cases a <;> cases b <;> simp_all
  · rintro ⟨m, M, hm, hM, rfl⟩
    exact ⟨_, hm, _, hM, rfl⟩

theorem quantity_some {d : Dict} {q : String} {r : Bool} {v : Val} :
    quantity d q (some r) = .ok v ↔ ∃ re im, d q = some (.cplx re im) ∧ v = .arr (if r then re else im) := by
  simp only [quantity, bind_ok, look_ok]
  constructor
  · rintro ⟨a, ha, h⟩
    cases a with
    | cplx re im => exact ⟨re, im, ha, by simpa [eq_comm] using h⟩
    | arr a => simp at h
    | num x => simp at h
    | text s => simp at h
  · rintro ⟨re, im, h, rfl⟩
    exact ⟨_, h, rfl⟩

theorem quantity_none {d : Dict} {q : String} {v : Val} : quantity d q none = .ok v ↔ d q = some v := look_ok

theorem curve_ok {x y : Val} {l : Option String} {c : Curve} :
    curve x y l = .ok c ↔ ∃ a b, x = .arr a ∧ y = .arr b ∧ a.length = b.length ∧ c = ⟨.arr a, .arr b, l⟩ := by
  unfold curve
  cases x <;> cases y <;> simp
  rename_i a b
  split <;> simp_all [eq_comm]

theorem title_ok {ad nad : Dict} {t : Title} : title ad nad = .ok t ↔
    ∃ l m n fa fn u s, ad "l" = some l ∧ ad "m" = some m ∧ ad "n_g" = some n ∧ ad "freq" = some fa ∧ nad "freq" = some fn ∧
      ad "freq_units" = some u ∧ ad "freq_frame" = some (.text s) ∧
      t = ⟨l, m, n, fa, fn, (match u with | .text s => unitText s | _ => ""), s.toLower⟩ := by
  unfold title
  simp only [bind_ok, look_ok]
  constructor
  · rintro ⟨l, hl, m, hm, n, hn, fa, hfa, fn, hfn, u, hu, fr, hfr, h⟩
    cases fr with
    | text s => exact ⟨l, m, n, fa, fn, u, s, hl, hm, hn, hfa, hfn, hu, hfr, by cases u <;> simp at h ⊢ <;> exact h.symm⟩
    | arr a => simp at h
    | num x => simp at h
    | cplx a b => simp at h
  · rintro ⟨l, m, n, fa, fn, u, s, hl, hm, hn, hfa, hfn, hu, hfr, rfl⟩
    exact ⟨l, hl, m, hm, n, hn, fa, hfa, fn, hfn, u, hu, _, hfr, rfl⟩

theorem unitText_eq (s : String) : unitText s = (unitNames.lookup s).getD "" := by
  unfold unitText unitNames
  by_cases h1 : s = "CYC_PER_DAY"
  · subst h1; rfl
  by_cases h2 : s = "HZ"
  · subst h2; rfl
  by_cases h3 : s = "UHZ"
  · subst h3; rfl
  by_cases h4 : s = "RAD_PER_SEC"
  · subst h4; rfl
  simp [List.lookup, h1, h2, h3, h4, beq_eq_false_iff_ne.2 h1, beq_eq_false_iff_ne.2 h2, beq_eq_false_iff_ne.2 h3, beq_eq_false_iff_ne.2 h4]

theorem titled_of_ok {ad nad : Dict} {t : Title} (h : title ad nad = .ok t) : Titled ad nad t := by
  obtain ⟨l, m, n, fa, fn, u, s, hl, hm, hn, hfa, hfn, hu, hfr, rfl⟩ := title_ok.1 h
  exact ⟨hl, hm, hn, hfa, hfn, ⟨u, hu, by rintro s rfl; exact unitText_eq s⟩, s, hfr, rfl⟩

/-- One panel. -/
theorem panel_ok {ads nads : List Dict} {xq yq : String} {r : Bool} {xl yl : String} {k : ℕ} {xb yb : Bounds} {ut ux ul : Bool}
    {p : Panel} : panel ads nads xq yq none (some r) xl yl k xb yb ut ux ul = .ok p ↔
    ∃ ad nad xa xn ra ia rn jn t, ads[k]? = some ad ∧ nads[k]? = some nad ∧ ad xq = some (.arr xa) ∧ nad xq = some (.arr xn) ∧
      ad yq = some (.cplx ra ia) ∧ nad yq = some (.cplx rn jn) ∧ xa.length = (if r then ra else ia).length ∧
      xn.length = (if r then rn else jn).length ∧ titleIf ut ad nad = .ok t ∧
      p = ⟨[⟨.arr xa, .arr (if r then ra else ia), some "adiabatic"⟩, ⟨.arr xn, .arr (if r then rn else jn), some "non-adiabatic"⟩],
        if ux then some xl else none, yl, xb, yb, ul, t⟩ := by
  unfold panel
  cases hA : ads[k]? with
  | none => simp
  | some ad =>
    cases hN : nads[k]? with
    | none => simp
    | some nad =>
      simp only [bind_ok, quantity_some, curve_ok, quantity_none]
      constructor
      · rintro ⟨xa, hxa, ya, ⟨ra, ia, hr, rfl⟩, ca, ⟨a, b, rfl, hb, hl, rfl⟩, xn, hxn, yn, ⟨rn, jn, hrn, rfl⟩, cn,
          ⟨a', b', rfl, hb', hl', rfl⟩, t, ht, h⟩
        cases hb; cases hb'
        refine ⟨ad, nad, a, a', ra, ia, rn, jn, t, rfl, rfl, hxa, hxn, hr, hrn, hl, hl', ht, ?_⟩
        injection h with h
        exact h.symm
      · rintro ⟨ad', nad', xa, xn, ra, ia, rn, jn, t, h1, h2, hxa, hxn, hr, hrn, hl, hl', ht, rfl⟩
        cases h1; cases h2
        exact ⟨_, hxa, _, ⟨ra, ia, hr, rfl⟩, _, ⟨_, _, rfl, rfl, hl, rfl⟩, _, hxn, _, ⟨rn, jn, hrn, rfl⟩, _,
          ⟨_, _, rfl, rfl, hl', rfl⟩, t, ht, rfl⟩

theorem map_some_ok {α : Type} {x : Except Err α} {t : Option α} : x.map some = .ok t ↔ ∃ a, x = .ok a ∧ t = some a := by
  cases x <;> simp [Except.map, eq_comm]

/-- One figure in terms of the loaded data with the coordinate stored under `xq`. -/
theorem figure_ok {ads nads : List Dict} {xq q xl rl il : String} {k : ℕ} {f : Figure} :
    figureComparison ads nads xq q none (.many [some true, some false]) xl (.many [rl, il]) k (some (0, 1)) none = .ok f ↔
    ∃ ad nad xa xn ra ia rn jn t, ads[k]? = some ad ∧ nads[k]? = some nad ∧ ad xq = some (.arr xa) ∧ nad xq = some (.arr xn) ∧
      ad q = some (.cplx ra ia) ∧ nad q = some (.cplx rn jn) ∧ xa.length = ra.length ∧ xa.length = ia.length ∧
      xn.length = rn.length ∧ xn.length = jn.length ∧ title ad nad = .ok t ∧
      f = [⟨[⟨.arr xa, .arr ra, some "adiabatic"⟩, ⟨.arr xn, .arr rn, some "non-adiabatic"⟩], none, rl, some (0, 1), none, true, some t⟩,
        ⟨[⟨.arr xa, .arr ia, some "adiabatic"⟩, ⟨.arr xn, .arr jn, some "non-adiabatic"⟩], some xl, il, some (0, 1), none, false, none⟩] := by
  unfold figureComparison
  simp only [bind_ok, panel_ok]
  constructor
  · rintro ⟨p0, ⟨ad, nad, xa, xn, ra, ia, rn, jn, t, h1, h2, hxa, hxn, hr, hrn, hl, hl', ht, rfl⟩, p1,
      ⟨ad', nad', xa', xn', ra', ia', rn', jn', t', h1', h2', hxa', hxn', hr', hrn', hl2, hl2', ht', rfl⟩, h⟩
    rw [h1] at h1'; rw [h2] at h2'
    cases h1'; cases h2'
    rw [hxa] at hxa'; rw [hxn] at hxn'; rw [hr] at hr'; rw [hrn] at hrn'
    cases hxa'; cases hxn'; cases hr'; cases hrn'
    simp only [titleIf, if_true, map_some_ok] at ht
    obtain ⟨t0, ht, rfl⟩ := ht
    simp [titleIf] at ht'
    subst ht'
    refine ⟨ad, nad, xa, xn, ra, ia, rn, jn, t0, h1, h2, hxa, hxn, hr, hrn, by simpa using hl, by simpa using hl2, by simpa using hl',
      by simpa using hl2', ht, ?_⟩
    simpa [eq_comm] using h
  · rintro ⟨ad, nad, xa, xn, ra, ia, rn, jn, t, h1, h2, hxa, hxn, hr, hrn, ha, ha', hn, hn', ht, rfl⟩
    refine ⟨_, ⟨ad, nad, xa, xn, ra, ia, rn, jn, some t, h1, h2, hxa, hxn, hr, hrn, by simpa using ha, by simpa using hn, ?_, rfl⟩, _,
      ⟨ad, nad, xa, xn, ra, ia, rn, jn, none, h1, h2, hxa, hxn, hr, hrn, by simpa using ha', by simpa using hn', by simp [titleIf], rfl⟩, by simp⟩
    simp [titleIf, map_some_ok, ht]

theorem put_other {d : Dict} {k j : String} {v : Val} (h : j ≠ k) : put d k v j = d j := by simp [put, h]

theorem put_same {d : Dict} {k : String} {v : Val} : put d k v k = some v := by simp [put]

/-- The dictionaries after the masses are added. -/
theorem massProfiles_ok : ∀ {as bs as' bs' : List Dict}, massProfiles as bs = .ok (as', bs') → as.length = bs.length →
    as'.length = as.length ∧ bs'.length = bs.length ∧
    (∀ (k : ℕ) (d' : Dict), as'[k]? = some d' → ∃ d v, as[k]? = some d ∧ massOf d = .ok v ∧ d' = put d "mass" v) ∧
    (∀ (k : ℕ) (d' : Dict), bs'[k]? = some d' → ∃ d v, bs[k]? = some d ∧ massOf d = .ok v ∧ d' = put d "mass" v) := by
  intro as
  induction as with
  | nil =>
    intro bs as' bs' h hl
    cases bs with
    | nil =>
      simp [massProfiles] at h
      obtain ⟨rfl, rfl⟩ := h
      simp
    | cons b bs => simp at hl
  | cons a as ih =>
    intro bs as' bs' h hl
    cases bs with
    | nil => simp at hl
    | cons b bs =>
      simp only [massProfiles, bind_ok] at h
      obtain ⟨ma, hma, mb, hmb, ⟨as2, bs2⟩, hr, h⟩ := h
      simp only [Except.ok.injEq, Prod.mk.injEq] at h
      obtain ⟨rfl, rfl⟩ := h
      obtain ⟨h1, h2, h3, h4⟩ := ih hr (by simpa using hl)
      refine ⟨by simp [h1], by simp [h2], ?_, ?_⟩
      · intro k d' hk
        cases k with
        | zero => simp at hk; exact ⟨a, ma, by simp, hma, hk.symm⟩
        | succ k => simpa using h3 k d' (by simpa using hk)
      · intro k d' hk
        cases k with
        | zero => simp at hk; exact ⟨b, mb, by simp, hmb, hk.symm⟩
        | succ k => simpa using h4 k d' (by simpa using hk)

theorem massProfiles_total : ∀ {as bs : List Dict}, (∀ d ∈ as, HasMass d) → (∀ d ∈ bs, HasMass d) →
    ∃ r, massProfiles as bs = .ok r := by
  intro as
  induction as with
  | nil => intro bs _ _; exact ⟨([], bs), by simp [massProfiles]⟩
  | cons a as ih =>
    intro bs ha hb
    cases bs with
    | nil => exact ⟨(a :: as, []), by simp [massProfiles]⟩
    | cons b bs =>
      obtain ⟨m, M, h1, h2⟩ := ha a (by simp)
      obtain ⟨m', M', h1', h2'⟩ := hb b (by simp)
      obtain ⟨r, hr⟩ := ih (bs := bs) (fun d hd => ha d (by simp [hd])) (fun d hd => hb d (by simp [hd]))
      refine ⟨(put a "mass" (.arr (m.map (· / M))) :: r.1, put b "mass" (.arr (m'.map (· / M'))) :: r.2), ?_⟩
      simp only [massProfiles, bind_ok]
      exact ⟨_, massOf_ok.2 ⟨m, M, h1, h2, rfl⟩, _, massOf_ok.2 ⟨m', M', h1', h2', rfl⟩, r, hr, rfl⟩

theorem massProfiles_has : ∀ {as bs : List Dict} {r}, massProfiles as bs = .ok r → as.length = bs.length →
    (∀ d ∈ as, HasMass d) ∧ (∀ d ∈ bs, HasMass d) := by
  intro as
  induction as with
  | nil => intro bs r _ hl; cases bs <;> simp_all
  | cons a as ih =>
    intro bs r h hl
    cases bs with
    | nil => simp at hl
    | cons b bs =>
      simp only [massProfiles, bind_ok] at h
      obtain ⟨ma, hma, mb, hmb, r', hr, _⟩ := h
      obtain ⟨m, M, h1, h2, _⟩ := massOf_ok.1 hma
      obtain ⟨m', M', h1', h2', _⟩ := massOf_ok.1 hmb
      obtain ⟨i1, i2⟩ := ih hr (by simpa using hl)
      constructor
      · intro d hd
        rcases List.mem_cons.1 hd with rfl | hd
        · exact ⟨m, M, h1, h2⟩
        · exact i1 d hd
      · intro d hd
        rcases List.mem_cons.1 hd with rfl | hd
        · exact ⟨m', M', h1', h2'⟩
        · exact i2 d hd

/-- Figures finished are those whose calls succeeded. -/
theorem draw_get : ∀ (l : List (Except Err Figure)) (i : ℕ) (f : Figure), (draw l).1[i]? = some f → l[i]? = some (.ok f) := by
  intro l
  induction l with
  | nil => intro i f h; simp [draw] at h
  | cons c l ih =>
    intro i f h
    cases c with
    | error e => simp [draw] at h
    | ok g =>
      cases i with
      | zero => simpa [draw] using h
      | succ i => simpa using ih i f (by simpa [draw] using h)

theorem draw_none : ∀ (l : List (Except Err Figure)), (draw l).2 = none ↔ ∀ c ∈ l, ∃ f, c = .ok f := by
  intro l
  induction l with
  | nil => simp [draw]
  | cons c l ih =>
    cases c with
    | error e => simp [draw]
    | ok g => simp [draw, ih]

theorem draw_length : ∀ (l : List (Except Err Figure)), (draw l).2 = none → (draw l).1.length = l.length := by
  intro l
  induction l with
  | nil => simp [draw]
  | cons c l ih =>
    cases c with
    | error e => simp [draw]
    | ok g => simpa [draw] using ih

theorem draw_fail : ∀ (l : List (Except Err Figure)), (draw l).1.length ≤ l.length := by
  intro l
  induction l with
  | nil => simp [draw]
  | cons c l ih =>
    cases c with
    | error e => simp [draw]
    | ok g => simpa [draw] using ih

/-- The coordinate in the dictionary with the mass added. -/
theorem coordinate_put {radius : Bool} {d : Dict} {v : Val} {c : List ℝ} (h : massOf d = .ok v) :
    put d "mass" v (if radius then "x" else "mass") = some (.arr c) ↔ Coordinate radius d c := by
  obtain ⟨m, M, h1, h2, rfl⟩ := massOf_ok.1 h
  cases radius with
  | true => simp [Coordinate, put_other]
  | false =>
    simp only [Bool.false_eq_true, if_false, put_same, Coordinate, Option.some.injEq, Val.arr.injEq]
    constructor
    · rintro rfl
      exact ⟨m, M, h1, h2, rfl⟩
    · rintro ⟨m', M', h1', h2', rfl⟩
      rw [h1] at h1'; rw [h2] at h2'
      cases h1'; cases h2'
      rfl

theorem title_put {ad nad : Dict} {v w : Val} {t : Title} : title (put ad "mass" v) (put nad "mass" w) = .ok t ↔ title ad nad = .ok t := by
  simp only [title_ok]
  simp only [put_other (show ("l" : String) ≠ "mass" by decide), put_other (show ("m" : String) ≠ "mass" by decide),
    put_other (show ("n_g" : String) ≠ "mass" by decide), put_other (show ("freq" : String) ≠ "mass" by decide),
    put_other (show ("freq_units" : String) ≠ "mass" by decide), put_other (show ("freq_frame" : String) ≠ "mass" by decide)]

/-- The displacement and the labels of its panels. -/
def names (i : ℕ) : String × String × String :=
  if i = 0 then ("xi_r", "$Re[\\xi_R]$", "$Im[\\xi_R]$") else ("xi_h", "$Re[\\xi_H]$", "$Im[\\xi_H]$")

/-- The calls by their position. -/
theorem calls_get (ads nads : List Dict) (radius : Bool) (i : ℕ) (c : Except Err Figure) :
    (comparisonCalls ads nads radius)[i]? = some c ↔ i < 6 ∧
      c = figureComparison ads nads (if radius then "x" else "mass") (names (i % 2)).1 none (.many [some true, some false])
        (if radius then "r / R$_*$" else "m / M$_*$") (.many [(names (i % 2)).2.1, (names (i % 2)).2.2]) (i / 2) (some (0, 1)) none := by
  have hl : (comparisonCalls ads nads radius).length = 6 := by simp [comparisonCalls, List.range_succ]
  constructor
  · intro h
    obtain ⟨hi, h⟩ := List.getElem?_eq_some_iff.1 h
    rw [hl] at hi
    refine ⟨hi, h.symm.trans ?_⟩
    interval_cases i <;> simp [comparisonCalls, List.range_succ, names]
  · rintro ⟨hi, rfl⟩
    interval_cases i <;> simp [comparisonCalls, List.range_succ, names]

/-! ### C157 -/

/-- Every finished figure shows what it should: figure `2 k` the radial and figure `2 k + 1` the horizontal displacement of mode `k`,
also in runs that raise later. -/
theorem C157_figures (ads nads : List Dict) (hl : ads.length = nads.length) (radius : Bool) (i : ℕ) (f : Figure)
    (h : (compareModes ads nads radius).1[i]? = some f) :
    ∃ ad nad, ads[i / 2]? = some ad ∧ nads[i / 2]? = some nad ∧
      (i % 2 = 0 → Shows ad nad radius "xi_r" "$Re[\\xi_R]$" "$Im[\\xi_R]$" f) ∧
      (i % 2 = 1 → Shows ad nad radius "xi_h" "$Re[\\xi_H]$" "$Im[\\xi_H]$" f) := by
  unfold compareModes at h
  cases hr : massProfiles ads nads with
  | error e => rw [hr] at h; simp at h
  | ok r =>
    obtain ⟨as', bs'⟩ := r
    rw [hr] at h
    obtain ⟨-, -, hA, hB⟩ := massProfiles_ok hr hl
    obtain ⟨-, hc⟩ := (calls_get _ _ _ _ _).1 (draw_get _ _ _ h)
    obtain ⟨ad', nad', xa, xn, ra, ia, rn, jn, t, h1, h2, hxa, hxn, hq, hq', e1, e2, e3, e4, ht, hf⟩ := figure_ok.1 hc.symm
    obtain ⟨ad, v, k1, k2, rfl⟩ := hA _ _ h1
    obtain ⟨nad, w, l1, l2, rfl⟩ := hB _ _ h2
    have hne : (names (i % 2)).1 ≠ "mass" := by unfold names; split <;> decide
    rw [put_other hne] at hq hq'
    have hs : Shows ad nad radius (names (i % 2)).1 (names (i % 2)).2.1 (names (i % 2)).2.2 f := by
      subst hf
      exact ⟨_, _, xa, xn, ra, ia, rn, jn, t, rfl, (coordinate_put k2).1 hxa, (coordinate_put l2).1 hxn, hq, hq',
        ⟨rfl, e1, e3⟩, ⟨rfl, e2, e4⟩, rfl, rfl, rfl, rfl, rfl, rfl, rfl, rfl, rfl, titled_of_ok (title_put.1 ht)⟩
    refine ⟨ad, nad, k1, l1, fun he => ?_, fun he => ?_⟩
    · rw [he] at hs; exact hs
    · rw [he] at hs; exact hs

/-- All six figures are made, without an exception, exactly if the masses of all modes are there and each of the first three pairs is
complete. -/
theorem C157_complete (ads nads : List Dict) (hl : ads.length = nads.length) (radius : Bool) :
    ((compareModes ads nads radius).2 = none ∧ (compareModes ads nads radius).1.length = 6) ↔
      (∀ d ∈ ads, HasMass d) ∧ (∀ d ∈ nads, HasMass d) ∧
      ∀ k < 3, ∃ ad nad, ads[k]? = some ad ∧ nads[k]? = some nad ∧ Complete radius ad nad := by
  constructor
  · rintro ⟨h1, h2⟩
    have hm : ∃ r, massProfiles ads nads = .ok r := by
      cases hr : massProfiles ads nads with
      | error e => simp [compareModes, hr] at h1
      | ok r => exact ⟨r, rfl⟩
    obtain ⟨r, hr⟩ := hm
    obtain ⟨g1, g2⟩ := massProfiles_has hr hl
    refine ⟨g1, g2, fun k hk => ?_⟩
    have get : ∀ i < 6, ∃ f, (compareModes ads nads radius).1[i]? = some f := fun i hi =>
      ⟨_, List.getElem?_eq_getElem (by rw [h2]; exact hi)⟩
    obtain ⟨f, hf⟩ := get (2 * k) (by omega)
    obtain ⟨f', hf'⟩ := get (2 * k + 1) (by omega)
    obtain ⟨ad, nad, a1, a2, a3, -⟩ := C157_figures ads nads hl radius _ f hf
    obtain ⟨ad', nad', b1, b2, -, b3⟩ := C157_figures ads nads hl radius _ f' hf'
    have e0 : 2 * k / 2 = k := by omega
    have e1 : (2 * k + 1) / 2 = k := by omega
    rw [e0] at a1 a2
    rw [e1] at b1 b2
    rw [a1] at b1; rw [a2] at b2
    cases b1; cases b2
    obtain ⟨_, _, ca, cn, ra, ia, rn, jn, t, -, hca, hcn, hq, hq', ⟨-, l1, l2⟩, ⟨-, l3, l4⟩, -, -, -, -, -, -, -, -, -, ht⟩ := a3 (by omega)
    obtain ⟨_, _, ca', cn', ra', ia', rn', jn', t', -, hca', hcn', hp, hp', ⟨-, m1, m2⟩, ⟨-, m3, m4⟩, -⟩ := b3 (by omega)
    have uniq : ∀ {d : Dict} {c c' : List ℝ}, Coordinate radius d c → Coordinate radius d c' → c = c' := by
      intro d c c' h h'
      cases radius with
      | true =>
        simp only [Coordinate, if_true] at h h'
        rw [h] at h'; simpa using h'
      | false =>
        simp only [Coordinate, Bool.false_eq_true, if_false] at h h'
        obtain ⟨m, M, x1, x2, rfl⟩ := h
        obtain ⟨m', M', y1, y2, rfl⟩ := h'
        rw [x1] at y1; rw [x2] at y2
        cases y1; cases y2
        rfl
    cases uniq hca hca'
    cases uniq hcn hcn'
    obtain ⟨t1, t2, t3, t4, t5, ⟨u, t6, -⟩, s, t7, -⟩ := ht
    refine ⟨ad, nad, a1, a2, ⟨ca, cn, hca, hcn, ?_⟩, ?_, ⟨s, t7⟩, ⟨_, t5⟩⟩
    · intro q hq0
      simp only [List.mem_cons, List.not_mem_nil, or_false] at hq0
      rcases hq0 with rfl | rfl
      · exact ⟨ra, ia, rn, jn, hq, hq', l1.symm, l3.symm, l2.symm, l4.symm⟩
      · exact ⟨ra', ia', rn', jn', hp, hp', m1.symm, m3.symm, m2.symm, m4.symm⟩
    · intro j hj
      simp only [List.mem_cons, List.not_mem_nil, or_false] at hj
      rcases hj with rfl | rfl | rfl | rfl | rfl
      exacts [⟨_, t1⟩, ⟨_, t2⟩, ⟨_, t3⟩, ⟨_, t4⟩, ⟨_, t6⟩]
  · rintro ⟨g1, g2, g3⟩
    obtain ⟨⟨as', bs'⟩, hr⟩ := massProfiles_total g1 g2
    obtain ⟨n1, n2, hA, hB⟩ := massProfiles_ok hr hl
    have hall : ∀ c ∈ comparisonCalls as' bs' radius, ∃ f, c = .ok f := by
      intro c hc
      obtain ⟨i, hi⟩ := List.mem_iff_getElem?.1 hc
      obtain ⟨hi6, rfl⟩ := (calls_get _ _ _ _ _).1 hi
      obtain ⟨ad, nad, a1, a2, ⟨ca, cn, hca, hcn, hq⟩, hk, ⟨s, hs⟩, ⟨fn, hfn⟩⟩ := g3 (i / 2) (by omega)
      have hmem : (names (i % 2)).1 ∈ ["xi_r", "xi_h"] := by unfold names; split <;> decide
      have hne : (names (i % 2)).1 ≠ "mass" := by unfold names; split <;> decide
      obtain ⟨ra, ia, rn, jn, q1, q2, e1, e2, e3, e4⟩ := hq _ hmem
      have la : i / 2 < as'.length := by
        rw [n1]; exact (List.getElem?_eq_some_iff.1 a1).1
      have lb : i / 2 < bs'.length := by
        rw [n2]; exact (List.getElem?_eq_some_iff.1 a2).1
      obtain ⟨d, v, d1, d2, d3⟩ := hA _ _ (List.getElem?_eq_getElem la)
      obtain ⟨d', w, d1', d2', d3'⟩ := hB _ _ (List.getElem?_eq_getElem lb)
      rw [a1] at d1; rw [a2] at d1'
      cases d1; cases d1'
      obtain ⟨v1, hv1⟩ := hk "l" (by simp)
      obtain ⟨v2, hv2⟩ := hk "m" (by simp)
      obtain ⟨v3, hv3⟩ := hk "n_g" (by simp)
      obtain ⟨v4, hv4⟩ := hk "freq" (by simp)
      obtain ⟨v5, hv5⟩ := hk "freq_units" (by simp)
      exact ⟨_, figure_ok.2 ⟨_, _, ca, cn, ra, ia, rn, jn, _, (List.getElem?_eq_getElem la).trans (by rw [d3]),
        (List.getElem?_eq_getElem lb).trans (by rw [d3']),
        (coordinate_put d2).2 hca, (coordinate_put d2').2 hcn, by rw [put_other hne]; exact q1, by rw [put_other hne]; exact q2,
        e1.symm, e2.symm, e3.symm, e4.symm,
        title_put.2 (title_ok.2 ⟨v1, v2, v3, v4, fn, v5, s, hv1, hv2, hv3, hv4, hfn, hv5, hs, rfl⟩), rfl⟩⟩
    have e : compareModes ads nads radius = draw (comparisonCalls as' bs' radius) := by simp [compareModes, hr]
    rw [e]
    have hn := (draw_none _).2 hall
    exact ⟨hn, (draw_length _ hn).trans (by simp [comparisonCalls, List.range_succ])⟩

/-- The limits of the mass axis contain all points, if the enclosed masses are between zero and the mass of the star. -/
theorem C157_mass_range (d : Dict) (m : List ℝ) (M : ℝ) (h1 : d "M_r" = some (.arr m)) (h2 : d "M_star" = some (.num M)) (hM : 0 < M)
    (hm : ∀ x ∈ m, 0 ≤ x ∧ x ≤ M) (c : List ℝ) (hc : Coordinate false d c) : ∀ x ∈ c, 0 ≤ x ∧ x ≤ 1 := by
  obtain ⟨m', M', x1, x2, rfl⟩ := (by simpa [Coordinate] using hc : ∃ m M, d "M_r" = some (.arr m) ∧ d "M_star" = some (.num M) ∧ c = m.map (· / M))
  rw [h1] at x1; rw [h2] at x2
  cases x1; cases x2
  intro x hx
  obtain ⟨y, hy, rfl⟩ := List.mem_map.1 hx
  obtain ⟨p, q⟩ := hm y hy
  exact ⟨div_nonneg p hM.le, (div_le_one hM).2 q⟩

/-- The unit of the title is the adiabatic one: whatever unit the non-adiabatic mode has, it is not looked at. -/
theorem C157_unit_ignored (ad nad : Dict) (t : Title) (v : Val) (h : title ad nad = .ok t) :
    title ad (put nad "freq_units" v) = .ok t := by
  obtain ⟨l, m, n, fa, fn, u, s, hl, hm, hn, hfa, hfn, hu, hfr, rfl⟩ := title_ok.1 h
  exact title_ok.2 ⟨l, m, n, fa, fn, u, s, hl, hm, hn, hfa, by rw [put_other (by decide)]; exact hfn, hu, hfr, rfl⟩

/-- A list of labels of another length than two ends with a name without value instead of the message. -/
theorem C157_labels_raises (ads nads : List Dict) (xq yq xl : String) (rx : Option Bool) (ys : List String) (rs : List (Option Bool))
    (k : ℕ) (xb yb : Bounds) (h : ys.length ≠ 2) :
    figureComparison ads nads xq yq rx (.many rs) xl (.many ys) k xb yb = .error .unbound := by
  unfold figureComparison
  split
  · rename_i a b c d e f
    cases e
    simp at h
  · rename_i e f
    cases e
    simp [h]
  · rename_i e1 e2 e3
    exact absurd rfl (e3 _ _ rfl)

/-! ### A concrete comparison -/

/-- A mode with two points. -/
def exMode (a b : ℝ) : Dict := fun k =>
  if k = "x" then some (.arr [0, 1]) else if k = "M_r" then some (.arr [0, 6]) else if k = "M_star" then some (.num 6)
  else if k = "xi_r" then some (.cplx [a, 2] [0, b]) else if k = "xi_h" then some (.cplx [3, b] [a, 0])
  else if k = "freq_frame" then some (.text "INERTIAL") else if k = "freq_units" then some (.text "UHZ")
  else if k ∈ ["l", "m", "n_g", "freq"] then some (.num 1) else none

theorem exMode_complete (a b a' b' : ℝ) (radius : Bool) : Complete radius (exMode a b) (exMode a' b') := by
  refine ⟨⟨[0, 1], [0, 1], ?_, ?_, ?_⟩, ?_, ⟨"INERTIAL", by simp [exMode]⟩, ⟨.num 1, by simp [exMode]⟩⟩
  · cases radius
    · simp only [Coordinate, Bool.false_eq_true, if_false]
      exact ⟨[0, 6], 6, by simp [exMode], by simp [exMode], by norm_num⟩
    · simp [Coordinate, exMode]
  · cases radius
    · simp only [Coordinate, Bool.false_eq_true, if_false]
      exact ⟨[0, 6], 6, by simp [exMode], by simp [exMode], by norm_num⟩
    · simp [Coordinate, exMode]
  · intro q hq
    simp only [List.mem_cons, List.not_mem_nil, or_false] at hq
    rcases hq with rfl | rfl
    · exact ⟨[a, 2], [0, b], [a', 2], [0, b'], by simp [exMode], by simp [exMode], rfl, rfl, rfl, rfl⟩
    · exact ⟨[3, b], [a, 0], [3, b'], [a', 0], by simp [exMode], by simp [exMode], rfl, rfl, rfl, rfl⟩
  · intro k hk
    simp only [List.mem_cons, List.not_mem_nil, or_false] at hk
    rcases hk with rfl | rfl | rfl | rfl | rfl
    · exact ⟨.num 1, by simp [exMode]⟩
    · exact ⟨.num 1, by simp [exMode]⟩
    · exact ⟨.num 1, by simp [exMode]⟩
    · exact ⟨.num 1, by simp [exMode]⟩
    · exact ⟨.text "UHZ", by simp [exMode]⟩

/-- Six figures are made; with two modes only the first four are. -/
example : (compareModes [exMode 1 2, exMode 3 4, exMode 5 6] [exMode 1 3, exMode 3 5, exMode 5 7] false).1.length = 6 ∧
    (compareModes [exMode 1 2, exMode 3 4] [exMode 1 3, exMode 3 5] false).2 = some .index := by
  have hm : ∀ a b, HasMass (exMode a b) := fun a b => ⟨[0, 6], 6, by simp [exMode], by simp [exMode]⟩
  constructor
  · refine ((C157_complete _ _ (by simp) false).2 ⟨?_, ?_, ?_⟩).2
    · intro d hd
      simp only [List.mem_cons, List.not_mem_nil, or_false] at hd
      rcases hd with rfl | rfl | rfl <;> exact hm _ _
    · intro d hd
      simp only [List.mem_cons, List.not_mem_nil, or_false] at hd
      rcases hd with rfl | rfl | rfl <;> exact hm _ _
    · intro k hk
      interval_cases k <;> exact ⟨_, _, rfl, rfl, exMode_complete _ _ _ _ _⟩
  · have e : ∀ a b, massOf (exMode a b) = .ok (.arr [0, 1]) := fun a b =>
      massOf_ok.2 ⟨[0, 6], 6, by simp [exMode], by simp [exMode], by norm_num⟩
    simp [compareModes, massProfiles, e, bind, Except.bind, comparisonCalls, List.range_succ, figureComparison, panel, quantity, look,
      put, exMode, curve, titleIf, title, Except.map, draw]

end
end Verif.Comparer
