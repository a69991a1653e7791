import Verif.Props.MapFile

/-! # Map files: cases and counterexamples -/

namespace Tuf
open Spec Sample

set_option synthInstance.maxSize 1000

namespace Sample

def mapRepos : Json := .obj [(b!"a", .arr [.str b!"u"]), (b!"b", .arr [.str b!"v", .str b!"w"])]

/-- `[1]` is a map file with every kind of member, in different spellings; in `[2]` and `[3]` the member `mapping` occurs twice, in `[3]` with a shorter list between; `[4]` is `null`. -/
def mapEnv : Env :=
  { repoEnv with
    parse := fun b => match b with
      | [1] => some (.obj [(b!"Repositories", mapRepos), (b!"comment", .num 1),
          (b!"mapping", .arr [.null, .obj [(b!"PATHS", .arr [.str b!"*", .null]), (b!"repositories", .arr [.str b!"a"]), (b!"threshold", .num 1), (b!"terminating", .bool true)], .obj []])])
      | [2] => some (.obj [(b!"repositories", mapRepos), (b!"mapping", .arr [mappingJ [b!"a", b!"b"] 2 true b!"x"]),
          (b!"mapping", .arr [.obj [(b!"paths", .arr [.str b!"*"]), (b!"repositories", .arr [.str b!"b"])]])])
      | [3] => some (.obj [(b!"repositories", mapRepos), (b!"mapping", .arr [.null, mappingJ [b!"a", b!"b"] 2 true b!"x"]), (b!"mapping", .arr [.null]),
          (b!"mapping", .arr [.null, .obj [(b!"paths", .arr [.str b!"*"]), (b!"repositories", .arr [.str b!"b"])]])])
      | [4] => some .null
      | [5] => some (.obj [(b!"repositories", mapRepos), (b!"mapping", .arr [.obj [(b!"paths", .arr [.str b!"*"]), (b!"repositories", .arr [.str b!"b"])]])])
      | _ => none }

def mapRoots : Entries Bytes := [(b!"a", [1]), (b!"b", [2]), (b!"c", [3])]

/-- What was read: paths, repositories, threshold and terminating of the mappings. -/
def mappingsRead (data : Bytes) (roots : Entries Bytes) : Res (Option (List (Option (Option (List Str) × Option (List Str) × Int × Bool)))) :=
  (newMultiConfig mapEnv data roots).map (fun c => c.repoMap.mapping.map (fun l => l.map (fun p => p.map (fun p => (p.paths, p.repositories, p.threshold, p.terminating)))))

end Sample

/-- The hypotheses of C123 are met, by a map file with unusual members. -/
example : (∀ j, mapEnv.parse [1] = some j → PlainMap j) ∧ mappingsRead [1] mapRoots = .ok (some [none, some (some [b!"*", []], some [b!"a"], 1, true), some (none, none, 0, false)]) ∧
    (newMultiConfig mapEnv [1] [(b!"a", [1])]).isOk = false := by
  refine ⟨?_, by decide +kernel, by decide +kernel⟩
  intro j hj
  cases hj
  intro m hm
  cases hm
  have hn : ∀ {n k : Str}, SimpleName n ∧ foldKey k ≠ foldKey n → ¬ Spelled n k := not_spelled
  have hy : ∀ {n k : Str}, SimpleName n ∧ foldKey k = foldKey n → Spelled n k := fun h => (foldKey_spelled h.1).1 h.2
  refine ⟨?_, ?_⟩
  · intro n hmem
    simp only [List.mem_cons, List.not_mem_nil, or_false] at hmem
    rcases hmem with rfl | rfl
    · refine .inr ⟨_, [], b!"Repositories", [_, _], rfl, hy (by decide), ?_⟩
      intro e he
      simp only [List.nil_append, List.mem_cons, List.not_mem_nil, or_false] at he
      rcases he with rfl | rfl <;> exact hn (by decide)
    · refine .inr ⟨_, [_, _], b!"mapping", [], rfl, hy (by decide), ?_⟩
      intro e he
      simp only [List.append_nil, List.mem_cons, List.not_mem_nil, or_false] at he
      rcases he with rfl | rfl <;> exact hn (by decide)
  · intro e he hs l hl o ho n hmem
    simp only [List.mem_cons, List.not_mem_nil, or_false] at he
    rcases he with rfl | rfl | rfl
    · exact absurd hs (hn (by decide))
    · exact absurd hs (hn (by decide))
    · cases hl
      simp only [List.mem_cons, List.not_mem_nil, or_false, reduceCtorEq, false_or, Json.obj.injEq] at ho
      rcases ho with rfl | rfl
      · simp only [List.mem_cons, List.not_mem_nil, or_false] at hmem
        rcases hmem with rfl | rfl | rfl | rfl
        · refine .inr ⟨_, [], b!"PATHS", [_, _, _], rfl, hy (by decide), ?_⟩
          intro e he
          simp only [List.nil_append, List.mem_cons, List.not_mem_nil, or_false] at he
          rcases he with rfl | rfl | rfl <;> exact hn (by decide)
        · refine .inr ⟨_, [_], b!"repositories", [_, _], rfl, hy (by decide), ?_⟩
          intro e he
          simp only [List.cons_append, List.nil_append, List.mem_cons, List.not_mem_nil, or_false] at he
          rcases he with rfl | rfl | rfl <;> exact hn (by decide)
        · refine .inr ⟨_, [_, _], b!"threshold", [_], rfl, hy (by decide), ?_⟩
          intro e he
          simp only [List.cons_append, List.nil_append, List.mem_cons, List.not_mem_nil, or_false] at he
          rcases he with rfl | rfl | rfl <;> exact hn (by decide)
        · refine .inr ⟨_, [_, _, _], b!"terminating", [], rfl, hy (by decide), ?_⟩
          intro e he
          simp only [List.append_nil, List.mem_cons, List.not_mem_nil, or_false] at he
          rcases he with rfl | rfl | rfl <;> exact hn (by decide)
      · exact .inl (fun e he => by cases he)

/-- C123 is false for map files that repeat a member. Of two members `mapping` the last one should count alone, as `[5]` has it; but the threshold and the truth value of the earlier one
stay, even if a shorter list is between them. And a map file `null` crashes `NewConfig`. -/
theorem C123_false :
    mappingsRead [5] mapRoots = .ok (some [some (some [b!"*"], some [b!"b"], 0, false)]) ∧
    mappingsRead [2] mapRoots = .ok (some [some (some [b!"*"], some [b!"b"], 2, true)]) ∧
    mappingsRead [3] mapRoots = .ok (some [none, some (some [b!"*"], some [b!"b"], 2, true)]) ∧
    mappingsRead [4] mapRoots = .panic :=
  ⟨by decide +kernel, by decide +kernel, by decide +kernel, by decide +kernel⟩

/-- The hypotheses of `C123_repeated_partial` are met by `[3]`, whose last list of mappings is one of two. -/
example : ∃ m j, mapEnv.parse [3] = some (.obj m) ∧ LastSpelled m b!"mapping" j ∧ (newMultiConfig mapEnv [3] mapRoots).isOk = true :=
  ⟨_, _, rfl, ⟨[_, _, _], _, [], rfl, Spelled.refl' _, by simp⟩, by decide +kernel⟩

end Tuf
