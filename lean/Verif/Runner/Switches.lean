import Verif.Runner.Run
/-!
# C161: the switches of the command line
-/
namespace Verif.Runner
open Verif.Opts (Val Tbl Item Arg PathInfo getHa readDict readList find setKey truthy mode1 findBase find_setKey)
open Verif.Inlist (Str)

/-- The documented switches without a value, with the attribute that each sets. -/
def Spec.switches : List (Str × List Str) :=
  [("no_verbose".toList, ["-no_verbose".toList, "--no_verbose".toList]), ("debug".toList, ["-debug".toList, "--debug".toList]),
   ("no_inlist".toList, ["-nil".toList, "--no_inlist".toList])]

/-- The option that names another inlist. -/
def Spec.inlistFlag : Str := "--inlist_name".toList

/-- Some word after the name of the script is one of `words`. -/
def Spec.Given (argv words : List Str) : Prop := ∃ a ∈ argv.tail, a ∈ words

theorem parse_switch (opts : List CliOpt) (d : Str) (words : List Str)
    (hw : ∀ a o, opts.find? (fun o => decide (a ∈ o.flags)) = some o → (o.dest = d ↔ a ∈ words) ∧ (o.dest = d → o.takesValue = false))
    (hx : ∀ a ∈ words, opts.find? (fun o => decide (a ∈ o.flags)) ≠ none ∧ a.head? = some '-') (n : ℕ) :
    ∀ (l : List Str) (ns ns' : Namespace) (b : Bool), l.length ≤ n → parseArgs opts ns l = .ok ns' → find d ns = some (.bool b) →
      find d ns' = some (.bool (b || l.any (· ∈ words))) := by
  induction n with
  | zero =>
    intro l ns ns' b hl h hf
    cases l with
    | cons a l => simp at hl
    | nil => rw [parseArgs] at h; cases h; simpa using hf
  | succ n ih =>
    intro l ns ns' b hl h hf
    cases l with
    | nil => rw [parseArgs] at h; cases h; simpa using hf
    | cons a rest =>
      rw [parseArgs] at h
      have hlen : rest.length ≤ n := by simpa using hl
      split at h
      · rename_i hn
        have : a ∉ words := fun ha => (hx a ha).1 hn
        have := ih rest ns ns' b hlen h hf
        simpa [‹a ∉ words›] using this
      · rename_i o ho
        obtain ⟨h1, h2⟩ := hw a o ho
        split at h
        · rename_i ht
          have hd : o.dest ≠ d := fun e => by rw [h2 e] at ht; cases ht
          have ha : a ∉ words := fun e => hd (h1.2 e)
          split at h
          · cases h
          · rename_i v rest'
            split at h
            · cases h
            · rename_i hv
              have hvw : v ∉ words := fun e => hv (hx v e).2
              have := ih rest' _ ns' b (by simp at hlen; omega) h (by rw [find_setKey, if_neg (Ne.symm hd)]; exact hf)
              simpa [ha, hvw] using this
        · by_cases hd : o.dest = d
          · have := ih rest _ ns' true hlen h (by rw [find_setKey, if_pos hd.symm])
            have ha := h1.1 hd
            simpa [ha] using this
          · have ha : a ∉ words := fun e => hd (h1.2 e)
            have := ih rest _ ns' b hlen h (by rw [find_setKey, if_neg (Ne.symm hd)]; exact hf)
            simpa [ha] using this

theorem parse_keeps (opts : List CliOpt) (d : Str) (flag : Str)
    (hw : ∀ a o, opts.find? (fun o => decide (a ∈ o.flags)) = some o → o.dest = d → a = flag) (n : ℕ) :
    ∀ (l : List Str) (ns ns' : Namespace), l.length ≤ n → flag ∉ l → parseArgs opts ns l = .ok ns' → find d ns' = find d ns := by
  induction n with
  | zero =>
    intro l ns ns' hl _ h
    cases l with
    | cons a l => simp at hl
    | nil => rw [parseArgs] at h; cases h; rfl
  | succ n ih =>
    intro l ns ns' hl hm h
    cases l with
    | nil => rw [parseArgs] at h; cases h; rfl
    | cons a rest =>
      rw [parseArgs] at h
      have hlen : rest.length ≤ n := by simpa using hl
      have hm' : flag ≠ a ∧ flag ∉ rest := by simpa using hm
      split at h
      · exact ih rest ns ns' hlen hm'.2 h
      · rename_i o ho
        have hd : o.dest ≠ d := fun e => hm'.1 (hw a o ho e).symm
        split at h
        · split at h
          · cases h
          · rename_i v rest'
            split at h
            · cases h
            · rw [ih rest' _ ns' (by simp at hlen; omega) (by have := hm'.2; simp at this; tauto) h, find_setKey, if_neg (Ne.symm hd)]
        · rw [ih rest _ ns' hlen hm'.2 h, find_setKey, if_neg (Ne.symm hd)]

theorem parse_value (opts : List CliOpt) (o : CliOpt) (flag v : Str) (r : List Str)
    (ho : opts.find? (fun o => decide (flag ∈ o.flags)) = some o) (hv : o.takesValue = true) (hf : flag.head? = some '-')
    (hw : ∀ a o', opts.find? (fun o => decide (a ∈ o.flags)) = some o' → o'.dest = o.dest → a = flag) (hr : flag ∉ r) (n : ℕ) :
    ∀ (l : List Str) (ns ns' : Namespace), l.length ≤ n → parseArgs opts ns (l ++ flag :: v :: r) = .ok ns' →
      find o.dest ns' = some (.str v) := by
  have base : ∀ ns ns', parseArgs opts ns (flag :: v :: r) = .ok ns' → find o.dest ns' = some (.str v) := by
    intro ns ns' h
    rw [parseArgs, ho] at h
    dsimp only at h
    rw [if_pos hv] at h
    split at h
    · cases h
    · rw [parse_keeps opts o.dest flag hw r.length r _ ns' le_rfl hr h, find_setKey, if_pos rfl]
  induction n with
  | zero =>
    intro l ns ns' hl h
    cases l with
    | cons a l => simp at hl
    | nil => exact base ns ns' h
  | succ n ih =>
    intro l ns ns' hl h
    cases l with
    | nil => exact base ns ns' h
    | cons a rest =>
      rw [List.cons_append, parseArgs] at h
      have hlen : rest.length ≤ n := by simpa using hl
      split at h
      · exact ih rest ns ns' hlen h
      · split at h
        · cases rest with
          | nil =>
            rw [List.nil_append] at h
            dsimp only at h
            rw [if_pos hf] at h
            cases h
          | cons w rest' =>
            rw [List.cons_append] at h
            dsimp only at h
            split at h
            · cases h
            · exact ih rest' _ ns' (by simp at hlen; omega) h
        · exact ih rest _ ns' hlen h

theorem parserInit_ok {base : Str} {methods : List String} {fs : FS} {inlist argv : List Str} {p : Parser}
    (h : parserInit base methods fs inlist argv = .ok p) :
    parseArgs (parserOpts methods) (defaults (parserOpts methods)) argv.tail = .ok p.ns ∧
      mode1 base inlist.dropLast (inlist.getLast?.getD []) = some p.info := by
  unfold parserInit at h
  split at h
  · cases h
  · rename_i i hi
    split at h
    · cases hq : parseArgs (parserOpts methods) (defaults (parserOpts methods)) argv.tail with
      | error e => rw [hq] at h; cases h
      | ok ns => rw [hq] at h; cases h; exact ⟨rfl, hi⟩
    · cases h

theorem opts_words (methods : List String) (a : Str) (o : CliOpt)
    (ho : (parserOpts methods).find? (fun o => decide (a ∈ o.flags)) = some o) :
    (∀ s ∈ Spec.switches, (o.dest = s.1 ↔ a ∈ s.2) ∧ (o.dest = s.1 → o.takesValue = false)) ∧
      (o.dest = "inlist_name".toList → a = Spec.inlistFlag) := by
  have hm := List.mem_of_find?_eq_some ho
  have ha : a ∈ o.flags := by have := List.find?_some ho; simpa using this
  have all : ∀ o ∈ genericOpts ++ [saveOpt], ∀ a ∈ o.flags,
      (∀ s ∈ Spec.switches, (o.dest = s.1 ↔ a ∈ s.2) ∧ (o.dest = s.1 → o.takesValue = false)) ∧
      (o.dest = "inlist_name".toList → a = Spec.inlistFlag) := by decide +kernel
  refine all o ?_ a ha
  unfold parserOpts at hm
  split at hm <;> simp at hm ⊢ <;> tauto

/-- **C161 (proved part).** The parser by itself: whatever else is on the command line, a switch is set exactly if one of its two
spellings is there, and the inlist is the one given last, by default that of the constructor. -/
theorem C161_namespace_partial (base : Str) (methods : List String) (fs : FS) (inlist argv : List Str) (p : Parser)
    (h : parserInit base methods fs inlist argv = .ok p) :
    (∀ s ∈ Spec.switches, ∃ b, find s.1 p.ns = some (.bool b) ∧ (b = true ↔ Spec.Given argv s.2)) ∧
    (¬ Spec.Given argv [Spec.inlistFlag] → p.inlist fs = p.info.path.1 ++ [p.info.path.2]) ∧
    ∀ l v r, argv.tail = l ++ Spec.inlistFlag :: v :: r → Spec.inlistFlag ∉ r → p.inlist fs = resolve fs.cwd (toPath v) := by
  obtain ⟨hq, -⟩ := parserInit_ok h
  have hfound : ∀ s ∈ Spec.switches, ∀ a ∈ s.2, (parserOpts methods).find? (fun o => decide (a ∈ o.flags)) ≠ none ∧
      a.head? = some '-' := by
    unfold parserOpts
    split_ifs <;> decide +kernel
  have hdef : ∀ s ∈ Spec.switches, find s.1 (defaults (parserOpts methods)) = some (.bool false) := by
    unfold parserOpts
    intro s hs
    simp only [Spec.switches, List.mem_cons, List.not_mem_nil, or_false] at hs
    split_ifs <;> rcases hs with rfl | rfl | rfl <;> rfl
  refine ⟨fun s hs => ?_, fun hno => ?_, fun l v r e hr => ?_⟩
  · have := parse_switch (parserOpts methods) s.1 s.2 (fun a o ho => (opts_words methods a o ho).1 s hs) (hfound s hs) _
      argv.tail _ p.ns false le_rfl hq (hdef s hs)
    refine ⟨_, this, ?_⟩
    simp [Spec.Given]
  · have hk := parse_keeps (parserOpts methods) "inlist_name".toList Spec.inlistFlag (fun a o ho => (opts_words methods a o ho).2) _
      argv.tail _ p.ns le_rfl (fun hm => hno ⟨_, hm, by simp⟩) hq
    have hd : find "inlist_name".toList (defaults (parserOpts methods)) = some .none := by
      unfold parserOpts
      split_ifs <;> rfl
    unfold Parser.inlist
    rw [hk, hd]
  · rw [e] at hq
    have ho : ∃ o, (parserOpts methods).find? (fun o => decide (Spec.inlistFlag ∈ o.flags)) = some o ∧ o.takesValue = true ∧
        o.dest = "inlist_name".toList := by
      refine ⟨⟨["--inlist_name".toList], "inlist_name".toList, true⟩, ?_, rfl, rfl⟩
      unfold parserOpts
      split_ifs <;> rfl
    obtain ⟨o, ho, hv, hd⟩ := ho
    have := parse_value (parserOpts methods) o Spec.inlistFlag v r ho hv (by decide)
      (fun a o' ho' e => (opts_words methods a o' ho').2 (e.trans hd)) hr _ l _ p.ns le_rfl hq
    unfold Parser.inlist
    rw [← hd, this]

/-- **C161 (refutation).** `--debug` and `--no_verbose` change nothing: with and without them the parser reads the same inlist, has
the same path information and gives the same save name (unless `--no_inlist` is given, see below). -/
theorem C161_verbosity_wrong (base : Str) (methods : List String) (fs : FS) (docs : List Str → Tbl) (inlist argv argv' : List Str)
    (p p' : Parser) (h : parserInit base methods fs inlist argv = .ok p) (h' : parserInit base methods fs inlist argv' = .ok p')
    (he : argv'.tail = argv.tail.filter fun a => a ∉ ["-debug".toList, "--debug".toList, "-no_verbose".toList, "--no_verbose".toList])
    (hn : ¬ Spec.Given argv ["-nil".toList, "--no_inlist".toList]) :
    p.info = p'.info ∧ p.doc fs docs = p'.doc fs docs ∧ getSaveName p = getSaveName p' := by
  obtain ⟨hq, hi⟩ := parserInit_ok h
  obtain ⟨hq', hi'⟩ := parserInit_ok h'
  rw [he] at hq'
  have same : ∀ (n : ℕ) (l : List Str) (ns ns' ms ms' : Namespace), l.length ≤ n → parseArgs (parserOpts methods) ns l = .ok ns' →
      parseArgs (parserOpts methods) ms (l.filter fun a => a ∉ ["-debug".toList, "--debug".toList, "-no_verbose".toList,
        "--no_verbose".toList]) = .ok ms' →
      ∀ k, k ≠ "debug".toList → k ≠ "no_verbose".toList → find k ns = find k ms → find k ns' = find k ms' := by
    intro n
    induction n with
    | zero =>
      intro l ns ns' ms ms' hl h h' k _ _ hf
      cases l with
      | cons a l => simp at hl
      | nil => rw [List.filter_nil, parseArgs] at h'; rw [parseArgs] at h; cases h; cases h'; exact hf
    | succ n ih =>
      intro l ns ns' ms ms' hl h h' k hk1 hk2 hf
      cases l with
      | nil => rw [List.filter_nil, parseArgs] at h'; rw [parseArgs] at h; cases h; cases h'; exact hf
      | cons a rest =>
        have hlen : rest.length ≤ n := by simpa using hl
        by_cases ha : a ∈ ["-debug".toList, "--debug".toList, "-no_verbose".toList, "--no_verbose".toList]
        · have hfound : ∀ a ∈ ["-debug".toList, "--debug".toList, "-no_verbose".toList, "--no_verbose".toList],
              ∃ o, (parserOpts methods).find? (fun o => decide (a ∈ o.flags)) = some o ∧ o.takesValue = false ∧
                (o.dest = "debug".toList ∨ o.dest = "no_verbose".toList) := by
            intro a ha
            simp only [List.mem_cons, List.not_mem_nil, or_false] at ha
            unfold parserOpts
            split_ifs <;> rcases ha with rfl | rfl | rfl | rfl <;>
              first
              | exact ⟨_, rfl, rfl, Or.inl rfl⟩
              | exact ⟨_, rfl, rfl, Or.inr rfl⟩
          obtain ⟨o, ho, hv, hd⟩ := hfound a ha
          rw [parseArgs, ho] at h
          dsimp only at h
          rw [hv, if_neg (by decide)] at h
          rw [List.filter_cons_of_neg (by rw [decide_eq_true_eq]; exact not_not.2 ha)] at h'
          refine ih rest _ ns' ms ms' hlen h h' k hk1 hk2 ?_
          rw [find_setKey, if_neg (by rintro rfl; rcases hd with hd | hd <;> simp_all)]
          exact hf
        · rw [List.filter_cons_of_pos (by simpa using ha)] at h'
          rw [parseArgs] at h h'
          cases ho : (parserOpts methods).find? (fun o => decide (a ∈ o.flags)) with
          | none => rw [ho] at h h'; exact ih rest ns ns' ms ms' hlen h h' k hk1 hk2 hf
          | some o =>
            rw [ho] at h h'
            dsimp only at h h'
            have hset : ∀ v, find k (setKey ns o.dest v) = find k (setKey ms o.dest v) := by
              intro v
              rw [find_setKey, find_setKey, hf]
            by_cases hv : o.takesValue = true
            · rw [if_pos hv] at h h'
              cases rest with
              | nil => cases h
              | cons v rest' =>
                dsimp only at h
                split at h
                · cases h
                · rename_i hdash
                  have hvv : v ∉ ["-debug".toList, "--debug".toList, "-no_verbose".toList, "--no_verbose".toList] := by
                    intro hm
                    simp only [List.mem_cons, List.not_mem_nil, or_false] at hm
                    rcases hm with rfl | rfl | rfl | rfl <;> exact hdash rfl
                  rw [List.filter_cons_of_pos (by simpa using hvv)] at h'
                  dsimp only at h'
                  rw [if_neg hdash] at h'
                  exact ih rest' _ ns' _ ms' (by simp at hlen; omega) h h' k hk1 hk2 (hset _)
            · rw [if_neg hv] at h h'
              exact ih rest _ ns' _ ms' hlen h h' k hk1 hk2 (hset _)
  have key : ∀ k, k ≠ "debug".toList → k ≠ "no_verbose".toList → find k p.ns = find k p'.ns :=
    fun k h1 h2 => same _ argv.tail _ p.ns _ p'.ns le_rfl hq hq' k h1 h2 rfl
  have hinfo : p.info = p'.info := Option.some.inj (hi.symm.trans hi')
  have hinl : p.inlist fs = p'.inlist fs := by
    unfold Parser.inlist
    rw [key _ (by decide) (by decide), hinfo]
  refine ⟨hinfo, ?_, ?_⟩
  · obtain ⟨b, hb, hb'⟩ := (C161_namespace_partial base methods fs inlist argv p h).1
      ("no_inlist".toList, ["-nil".toList, "--no_inlist".toList]) (by decide)
    have hbf : b = false := by
      cases b with
      | false => rfl
      | true => exact absurd (hb'.1 rfl) hn
    have hb2 := hb
    rw [key _ (by decide) (by decide)] at hb2
    unfold Parser.doc
    rw [hb, hb2, hinl, hbf]
    rfl
  · unfold getSaveName
    rw [key _ (by decide) (by decide)]

/-- **C161 (refutation).** `--no_inlist` cannot be used: the options are then looked for among the registered command-line
options, which do not contain them, and reading them fails. -/
theorem C161_no_inlist_wrong (base : Str) (methods : List String) (fs : FS) (docs : List Str → Tbl) (inlist argv : List Str)
    (p : Parser) (h : parserInit base methods fs inlist argv = .ok p) (hn : Spec.Given argv ["-nil".toList, "--no_inlist".toList]) :
    ∃ e, readArgs p.info (p.doc fs docs) = .error e := by
  obtain ⟨hq, -⟩ := parserInit_ok h
  obtain ⟨b, hb, hb'⟩ := (C161_namespace_partial base methods fs inlist argv p h).1
    ("no_inlist".toList, ["-nil".toList, "--no_inlist".toList]) (by decide)
  have hdoc : p.doc fs docs = p.ns := by
    unfold Parser.doc
    rw [hb, hb'.2 hn]
    rfl
  have hno : find "coupling_coefficient".toList p.ns = none := by
    refine parse_attr _ _ p.ns argv.tail _ ?_ ?_ hq
    · unfold parserOpts
      split_ifs <;> decide +kernel
    · unfold parserOpts
      split_ifs <;> rfl
  unfold readArgs
  rw [hdoc]
  split
  · refine ⟨.key, ?_⟩
    unfold readToml convertTuple
    rw [hno]
    rfl
  · exact ⟨_, rfl⟩

/-- **C161 (refutation).** The scripts accept no switch: a command line that works stops working when a word, or two words, are
added to it, whatever they are and wherever they are added. -/
theorem C161_scripts_wrong (s : Script) (fs : FS) (a b ws : List Str) (hw : ws.length = 1 ∨ ws.length = 2) (r : List Str)
    (h : inlistPath s fs (a ++ b) = .ok r) : inlistPath s fs (a ++ ws ++ b) = .error .runtime := by
  have hlen : (a ++ ws ++ b).length = (a ++ b).length + ws.length := by simp; omega
  have hok : ∃ f, inlistFile s (a ++ b) = .ok f := by
    unfold inlistPath at h
    obtain ⟨f, hf, -⟩ := (bind_ok _ _ _).1 h
    exact ⟨f, hf⟩
  obtain ⟨f, hf⟩ := hok
  have hbad : inlistFile s (a ++ ws ++ b) = .error .runtime := by
    generalize ha : a ++ b = x at hf hlen
    generalize a ++ ws ++ b = y at hlen
    unfold inlistFile at hf ⊢
    cases s with
    | solve =>
      have h36 : x.length = 6 ∨ x.length = 3 := by
        dsimp only at hf
        by_contra hc
        rw [if_neg (by tauto), if_neg (by tauto)] at hf
        cases hf
      dsimp only
      rw [if_neg (by omega), if_neg (by omega)]
    | plot =>
      have h36 : x.length = 4 ∨ x.length = 1 := by
        dsimp only at hf
        by_contra hc
        rw [if_neg (by tauto), if_neg (by tauto)] at hf
        cases hf
      dsimp only
      rw [if_neg (by omega), if_neg (by omega)]
    | analyze =>
      have h36 : x.length = 4 ∨ x.length = 1 := by
        dsimp only at hf
        by_contra hc
        rw [if_neg (by tauto), if_neg (by tauto)] at hf
        cases hf
      dsimp only
      rw [if_neg (by omega), if_neg (by omega)]
  unfold inlistPath
  rw [hbad]
  rfl

/-- A parser that starts, with a switch and another inlist. -/
example : ∃ p, parserInit "AESolver".toList (classMethods .solve) ⟨[], fun _ => true⟩
    ["AESolver".toList, "inlists".toList, "inlist.toml".toList]
    ["s".toList, "--debug".toList, "--inlist_name".toList, "/other.toml".toList] = .ok p ∧
    p.inlist ⟨[], fun _ => true⟩ = ["other.toml".toList] := ⟨_, rfl, by decide +kernel⟩

/-- A command line that works. -/
example : ∃ r, inlistPath .plot ⟨[], fun _ => true⟩ ["s".toList] = .ok r := ⟨_, rfl⟩

end Verif.Runner
