import Verif.Load.Info
/-!
# C132: the directories that a solver searches
-/
namespace Verif.Load
open Verif.Inlist (Str)
open Verif.Opts (Val Tbl find truthy At)

theorem dirArg_str {d : Dict IVal} {k : String} {s : Str} (h : get d k.toList = some (.v (.str s))) : dirArg d k = some (some s) := by
  unfold dirArg
  rw [h]

theorem dirArg_none {d : Dict IVal} {k : String} (h : get d k.toList = none) : dirArg d k = some none := by
  unfold dirArg
  rw [h]

theorem flagArg_val {d : Dict IVal} {k : String} {x : Val} (h : get d k.toList = some (.v x)) : flagArg d k = some (truthy x) := by
  unfold flagArg
  rw [h]

theorem initDirPath_some (b : Str) (o : Option Str) : initDirPath (some b) o = o := by cases o <;> rfl

theorem loaderDirs_false (ls : Str → Option (List Entry)) (b : Str) (d : Dirs) : loaderDirs ls (some b) false d = some d := by
  unfold loaderDirs inferDirs initDirs
  rw [initDirPath_some, initDirPath_some, initDirPath_some, initDirPath_some]
  rfl

theorem infoValue_str {doc : Val} {k : String} {p : List String} {s : Str} (h : subs doc p = some (.str s)) :
    infoValue doc ⟨k, p, none⟩ = some (.v (.str s)) := by
  unfold infoValue
  dsimp only
  rw [h]
  rfl

/-- The directories of a loader with the options of a star. -/
theorem star_dirs {doc : Val} {a : Dict IVal} {l m n : IVal} {g : Str} (ha : HasOptions doc a starSpec l m n [("gyre_output_dir", .v (.str g))])
    {B M : Str} (hB : subs doc ["information_folders", "MESA", "default", "base_dir"] = some (.str B))
    (hM : subs doc ["information_folders", "MESA", "default", "output_dir"] = some (.str M)) (ls : Str → Option (List Entry)) :
    loaderDirsOf ls a = some ⟨some M, some g, none, none⟩ := by
  obtain ⟨h1, h2, _, _, _, h6, h7⟩ := ha
  have hb : get a "base_dir".toList = some (.v (.str B)) :=
    (h1 ⟨"base_dir", ["information_folders", "MESA", "default", "base_dir"], none⟩ (by simp [starSpec])).trans (infoValue_str hB)
  have hm : get a "mesa_output_dir".toList = some (.v (.str M)) :=
    (h1 ⟨"mesa_output_dir", ["information_folders", "MESA", "default", "output_dir"], none⟩ (by simp [starSpec])).trans (infoValue_str hM)
  have hg : get a "gyre_output_dir".toList = some (.v (.str g)) := h6 ("gyre_output_dir", .v (.str g)) (List.mem_singleton.2 rfl)
  have no : ∀ k : Str, k ∉ strs (starSpec.map (·.key) ++ ["infer_dir", "search_l", "search_m", "search_n"] ++ ["gyre_output_dir"]) →
      get a k = none := by
    intro k hk
    by_contra hc
    exact hk (h7 k hc)
  unfold loaderDirsOf
  rw [dirArg_str hb, dirArg_str hm, dirArg_str hg, dirArg_none (no "polytrope_model_output_dir".toList (by decide +kernel)),
    dirArg_none (no "polytrope_oscillation_output_dir".toList (by decide +kernel)), flagArg_val h2]
  exact loaderDirs_false ls B _

/-- The directories of a loader with the options of a polytrope. -/
theorem poly_dirs {doc : Val} {a : Dict IVal} {l m n : IVal} (ha : HasOptions doc a polySpec l m n [("use_polytrope_data", .v (.bool true))])
    {B S O : Str} (hB : subs doc ["information_folders", "MESA", "default", "base_dir"] = some (.str B))
    (hS : subs doc ["information_folders", "POLY", "structure", "default", "output_dir"] = some (.str S))
    (hO : subs doc ["information_folders", "POLY", "modes", "default", "output_dir"] = some (.str O)) (ls : Str → Option (List Entry)) :
    loaderDirsOf ls a = some ⟨none, none, some S, some O⟩ := by
  obtain ⟨h1, h2, _, _, _, h6, h7⟩ := ha
  have hb : get a "base_dir".toList = some (.v (.str B)) :=
    (h1 ⟨"base_dir", ["information_folders", "MESA", "default", "base_dir"], none⟩ (by simp [polySpec])).trans (infoValue_str hB)
  have hs : get a "polytrope_model_output_dir".toList = some (.v (.str S)) :=
    (h1 ⟨"polytrope_model_output_dir", ["information_folders", "POLY", "structure", "default", "output_dir"], none⟩
      (by simp [polySpec])).trans (infoValue_str hS)
  have ho : get a "polytrope_oscillation_output_dir".toList = some (.v (.str O)) :=
    (h1 ⟨"polytrope_oscillation_output_dir", ["information_folders", "POLY", "modes", "default", "output_dir"], none⟩
      (by simp [polySpec])).trans (infoValue_str hO)
  have no : ∀ k : Str, k ∉ strs (polySpec.map (·.key) ++ ["infer_dir", "search_l", "search_m", "search_n"] ++ ["use_polytrope_data"]) →
      get a k = none := by
    intro k hk
    by_contra hc
    exact hk (h7 k hc)
  unfold loaderDirsOf
  rw [dirArg_str hb, dirArg_none (no "mesa_output_dir".toList (by decide +kernel)), dirArg_none (no "gyre_output_dir".toList (by decide +kernel)),
    dirArg_str hs, dirArg_str ho, flagArg_val h2]
  exact loaderDirs_false ls B _

/-- C132, partial: for a star, the mode files are searched in base directory plus mode path of the inlist (default
`output_rot_NN`, `output_nad_rot_NN`), the stellar models in `MESA.default.output_dir` as it is (`MESA.default.base_dir` is not put before
it). Missing: see the `_wrong` theorems. -/
theorem C132_star_partial (doc : Val) (h : Complete doc) (B M : Str)
    (hB : subs doc ["information_folders", "MESA", "default", "base_dir"] = some (.str B))
    (hM : subs doc ["information_folders", "MESA", "default", "output_dir"] = some (.str M))
    (base : Str) (ad nad : Option Str) (pct : Str) (l m n : IVal) (ls : Str → Option (List Entry)) :
    ∃ a b, solverLoaders false doc (some base) ad nad pct l m n = some [a, b] ∧
      loaderDirsOf ls a = some ⟨some M, some (base ++ ad.getD ("output_rot_".toList ++ pct) ++ "/".toList), none, none⟩ ∧
      loaderDirsOf ls b = some ⟨some M, some (base ++ nad.getD ("output_nad_rot_".toList ++ pct) ++ "/".toList), none, none⟩ := by
  obtain ⟨a, b, hs, ha, hb⟩ := C131_star doc h (some base) ad nad pct l m n
  exact ⟨a, b, hs, star_dirs ha hB hM ls, star_dirs hb hB hM ls⟩

/-- C132, partial: for a polytrope, models and modes are searched in the output directories of the information folders, as they are. -/
theorem C132_poly_partial (doc : Val) (h : Complete doc) (B S O : Str)
    (hB : subs doc ["information_folders", "MESA", "default", "base_dir"] = some (.str B))
    (hS : subs doc ["information_folders", "POLY", "structure", "default", "output_dir"] = some (.str S))
    (hO : subs doc ["information_folders", "POLY", "modes", "default", "output_dir"] = some (.str O))
    (base ad nad : Option Str) (pct : Str) (l m n : IVal) (ls : Str → Option (List Entry)) :
    ∃ a, solverLoaders true doc base ad nad pct l m n = some [a] ∧ loaderDirsOf ls a = some ⟨none, none, some S, some O⟩ := by
  obtain ⟨a, hs, ha⟩ := C131_poly doc h base ad nad pct l m n
  exact ⟨a, hs, poly_dirs ha hB hS hO ls⟩

/-- C132 is refuted: without a base directory the modes of a star are searched in a directory whose name begins with the word None. -/
theorem C132_base_none_wrong (doc : Val) (h : Complete doc) (B M : Str)
    (hB : subs doc ["information_folders", "MESA", "default", "base_dir"] = some (.str B))
    (hM : subs doc ["information_folders", "MESA", "default", "output_dir"] = some (.str M))
    (ad nad : Str) (pct : Str) (l m n : IVal) (ls : Str → Option (List Entry)) :
    ∃ a b, solverLoaders false doc none (some ad) (some nad) pct l m n = some [a, b] ∧
      loaderDirsOf ls a = some ⟨some M, some ("None".toList ++ ad ++ "/".toList), none, none⟩ ∧
      loaderDirsOf ls b = some ⟨some M, some ("None".toList ++ nad ++ "/".toList), none, none⟩ := by
  obtain ⟨a, b, hs, ha, hb⟩ := C131_star doc h none (some ad) (some nad) pct l m n
  exact ⟨a, b, hs, star_dirs ha hB hM ls, star_dirs hb hB hM ls⟩

/-- C132 is refuted: for polytropes the base directory and the mode paths of the inlist, and the rotation rate, are of no consequence. -/
theorem C132_poly_selection_wrong (doc : Val) (base ad nad base' ad' nad' : Option Str) (pct pct' : Str) (l m n : IVal) :
    solverLoaders true doc base ad nad pct l m n = solverLoaders true doc base' ad' nad' pct' l m n := rfl

/-- C132 is refuted: the directories `GYRE.default.base_dir`, `GYRE.default.output_dir` and those of POLY are of no consequence for stars,
although the documents without them are refused: two complete documents that agree on the other entries give the same directories and
options. -/
theorem C132_gyre_default_wrong (doc doc' : Val) (h : Complete doc) (h' : Complete doc') (he : ∀ i ∈ starSpec, infoValue doc i = infoValue doc' i)
    (base ad nad : Option Str) (pct : Str) (l m n : IVal) :
    ∃ a b a' b', solverLoaders false doc base ad nad pct l m n = some [a, b] ∧ solverLoaders false doc' base ad nad pct l m n = some [a', b'] ∧
      (∀ k, get a k = get a' k) ∧ ∀ k, get b k = get b' k := by
  obtain ⟨a, b, hs, ha, hb⟩ := C131_star doc h base ad nad pct l m n
  obtain ⟨a', b', hs', ha', hb'⟩ := C131_star doc' h' base ad nad pct l m n
  have key : ∀ {a a' : Dict IVal} {x : IVal}, HasOptions doc a starSpec l m n [("gyre_output_dir", x)] →
      HasOptions doc' a' starSpec l m n [("gyre_output_dir", x)] → ∀ k, get a k = get a' k := by
    intro a a' x ⟨h1, h2, h3, h4, h5, h6, h7⟩ ⟨g1, g2, g3, g4, g5, g6, g7⟩ k
    by_cases hk : k ∈ strs (starSpec.map (·.key) ++ ["infer_dir", "search_l", "search_m", "search_n"] ++ ["gyre_output_dir"])
    · unfold strs at hk
      rw [List.map_append, List.map_append, List.mem_append, List.mem_append] at hk
      rcases hk with (hk | hk) | hk
      · rw [List.map_map] at hk
        obtain ⟨i, hi, rfl⟩ := List.mem_map.1 hk
        exact (h1 i hi).trans ((he i hi).trans (g1 i hi).symm)
      · simp only [List.map_cons, List.map_nil, List.mem_cons, List.not_mem_nil, or_false] at hk
        rcases hk with rfl | rfl | rfl | rfl
        · exact h2.trans g2.symm
        · exact h3.trans g3.symm
        · exact h4.trans g4.symm
        · exact h5.trans g5.symm
      · rw [List.map_singleton, List.mem_singleton] at hk
        subst hk
        exact (h6 ("gyre_output_dir", x) (List.mem_singleton.2 rfl)).trans (g6 ("gyre_output_dir", x) (List.mem_singleton.2 rfl)).symm
    · have e1 : get a k = none := by
        by_contra hc; exact hk (h7 k hc)
      have e2 : get a' k = none := by
        by_contra hc; exact hk (g7 k hc)
      rw [e1, e2]
  exact ⟨a, b, a', b', hs, hs', key ha ha', key hb hb'⟩

/-! ### A document -/

/-- A table from names and values. -/
def tb (l : List (String × Val)) : Val := .tbl (l.map fun e => (e.1.toList, e.2))

/-- The information folders of a document like those of the repository; `G` is `GYRE.default.output_dir`. -/
def exDoc (G : Str) : Val := tb [("information_folders", tb
  [("MESA", tb [("default", tb [("base_dir", .str "/data/".toList), ("output_dir", .str "/data/mesa/".toList)]),
     ("selection", tb [("substrings", .arr [.str "profile".toList]), ("substrings_to_tuple", .bool true), ("suffix", .str "dat".toList)])]),
   ("GYRE", tb [("default", tb [("base_dir", .str "/data/".toList), ("output_dir", .str G)]),
     ("selection", tb [("detail_substrings", .arr [.str "detail".toList]), ("detail_substrings_to_tuple", .bool false),
       ("summary_substring", .str "summary".toList)])]),
   ("POLY", tb [("structure", tb [("default", tb [("base_dir", .str "/data/".toList), ("output_dir", .str "/data/poly/".toList)]),
       ("selection", tb [("substrings", .arr [.str "poly".toList]), ("substrings_to_tuple", .bool true), ("suffix", .str "h5".toList)])]),
     ("modes", tb [("default", tb [("base_dir", .str "/data/".toList), ("output_dir", .str "/data/modes/".toList)]),
       ("selection", tb [("detail_substrings", .arr [.str "detail".toList]), ("detail_substrings_to_tuple", .bool true),
         ("summary_substring", .str "summary".toList)])])])])]

theorem complete_of {doc : Val} (h : infoItems.all (fun i => (infoValue doc i).isSome) = true) : Complete doc :=
  fun i hi => Option.isSome_iff_exists.1 (List.all_eq_true.1 h i hi)

theorem exDoc_complete : Complete (exDoc "/data/gyre/".toList) := complete_of (by decide +kernel)
theorem exDoc_complete' : Complete (exDoc "/other/".toList) := complete_of (by decide +kernel)

/-- The hypotheses of C131 and C132 hold for it. -/
example : Complete (exDoc "/data/gyre/".toList) ∧
    subs (exDoc "/data/gyre/".toList) ["information_folders", "MESA", "default", "base_dir"] = some (.str "/data/".toList) ∧
    subs (exDoc "/data/gyre/".toList) ["information_folders", "MESA", "default", "output_dir"] = some (.str "/data/mesa/".toList) ∧
    subs (exDoc "/data/gyre/".toList) ["information_folders", "POLY", "structure", "default", "output_dir"] = some (.str "/data/poly/".toList) ∧
    subs (exDoc "/data/gyre/".toList) ["information_folders", "POLY", "modes", "default", "output_dir"] = some (.str "/data/modes/".toList) :=
  ⟨exDoc_complete, rfl, rfl, rfl, rfl⟩

/-- Two documents with other directories for GYRE, and the same options for stars. -/
example : Complete (exDoc "/data/gyre/".toList) ∧ Complete (exDoc "/other/".toList) ∧
    (∀ i ∈ starSpec, infoValue (exDoc "/data/gyre/".toList) i = infoValue (exDoc "/other/".toList) i) ∧
    subs (exDoc "/data/gyre/".toList) ["information_folders", "GYRE", "default", "output_dir"] = some (.str "/data/gyre/".toList) ∧
    subs (exDoc "/other/".toList) ["information_folders", "GYRE", "default", "output_dir"] = some (.str "/other/".toList) := by
  refine ⟨exDoc_complete, exDoc_complete', ?_, rfl, rfl⟩
  intro i hi
  simp only [starSpec, List.mem_cons, List.not_mem_nil, or_false] at hi
  rcases hi with rfl | rfl | rfl | rfl | rfl | rfl <;> rfl

/-- A document that is not complete: there is nothing about polytropes. -/
example : ¬ Complete (tb [("information_folders", tb [("MESA", tb []), ("GYRE", tb [])])]) := by
  intro h
  obtain ⟨x, hx⟩ := h ⟨"poly_base_dir", ["information_folders", "POLY", "structure", "default", "base_dir"], none⟩ (by simp [infoItems])
  cases hx

end Verif.Load
