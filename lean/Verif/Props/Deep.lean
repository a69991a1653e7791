import Verif.Props.Honest
import Verif.Props.Targets

/-! # Target paths with two or more slashes (C46, C88) -/

namespace Tuf
open Tuf.Spec

theorem first_part {x y c d : Str} (hx : (47 : UInt8) ∉ x) (hy : (47 : UInt8) ∉ y) (he : x ++ 47 :: c = y ++ 47 :: d) : x = y := by
  induction x generalizing y with
  | nil =>
    cases y with
    | nil => rfl
    | cons z y =>
      injection he with h1 h2
      exact absurd (by rw [h1]; exact .head _) hy
  | cons z x ih =>
    cases y with
    | nil =>
      injection he with h1 h2
      exact absurd (by rw [h1]; exact .head _) hx
    | cons z' y =>
      injection he with h1 h2
      rw [h1, ih (fun h => hx (.tail _ h)) (fun h => hy (.tail _ h)) h2]

theorem hexEncode_noSlash (b : Bytes) : (47 : UInt8) ∉ hexEncode b := by
  have key : ∀ d, d < 16 → digitChar d ≠ 47 := by decide
  induction b with
  | nil => intro hc; cases hc
  | cons x b ih =>
    have hx := x.toNat_lt
    intro hc
    rw [hexEncode] at hc
    rcases List.mem_cons.1 hc with hc | hc
    · exact key _ (by omega) hc.symm
    · rcases List.mem_cons.1 hc with hc | hc
      · exact key _ (by omega) hc.symm
      · exact ih hc

/-- For a path with two or more slashes the name that is requested is not the path with a hash before its last component. -/
theorem prefixedPath_deep {path h h' name : Str} (hd : 2 ≤ path.count 47) (hh : (47 : UInt8) ∉ h) (hn : PrefixedName path h' name) : prefixedPath path h ≠ name := by
  rcases cutSlash_spec path with ⟨h8, _⟩ | ⟨a, r, h8, h9, h10⟩
  · rw [List.count_eq_zero.2 h8] at hd
    omega
  · obtain ⟨dir, last, e1, e2, e3, rfl⟩ := hn
    -- the rest begins with a component and a slash
    have hr : 1 ≤ r.count 47 := by
      rw [h8, List.count_append, List.count_cons_self, List.count_eq_zero.2 h9] at hd
      omega
    rcases cutSlash_spec r with ⟨k1, _⟩ | ⟨c, r', k1, k2, _⟩
    · rw [List.count_eq_zero.2 k1] at hr
      omega
    · have hdir : ∃ dir', dir = a ++ 47 :: (c ++ 47 :: dir') := by
        have h2 : dir ++ last = a ++ 47 :: (c ++ 47 :: r') := by rw [← e1, h8, k1]
        have h2' : dir ++ last = (a ++ 47 :: (c ++ [47])) ++ r' := by rw [h2]; simp
        rcases List.append_eq_append_iff.1 h2' with ⟨l, h3, h4⟩ | ⟨l, h3, h4⟩
        · -- the directory ends before the second slash, which then is in the last component
          rcases List.eq_nil_or_concat l with rfl | ⟨l', z, rfl⟩
          · exact ⟨[], by rw [List.append_nil] at h3; rw [← h3]⟩
          · exfalso
            have hz : z = 47 := by
              have := congrArg List.getLast? h3
              rw [show a ++ 47 :: (c ++ [47]) = (a ++ 47 :: c) ++ [47] by simp, List.concat_eq_append, ← List.append_assoc, List.getLast?_append, List.getLast?_append] at this
              simpa using this.symm
            exact e2 (by rw [h4, hz]; simp)
        · exact ⟨l, by rw [h3]; simp⟩
      obtain ⟨dir', rfl⟩ := hdir
      unfold prefixedPath
      rw [h10]
      intro he
      have he' : a ++ 47 :: ((h ++ 46 :: c) ++ 47 :: r') = a ++ 47 :: (c ++ 47 :: (dir' ++ h' ++ b!"." ++ last)) := by
        rw [k1] at he
        simpa using he
      have h3 := List.append_cancel_left he'
      injection h3 with _ h3
      have h4 := first_part (by
        intro hm
        rcases List.mem_append.1 hm with hm | hm
        · exact hh hm
        · rcases List.mem_cons.1 hm with hm | hm
          · exact absurd hm (by decide)
          · exact k2 hm) k2 h3
      have := congrArg List.length h4
      simp at this
      omega

section
variable {x : Ctx}

/-- The negation of C46 for all paths with two or more slashes: with consistent snapshots and hash prefixes, what is requested is not the path with one of the listed hashes before its last component. -/
theorem C46_deep {tf : TargetFiles} {given base path : Str} {data : Bytes} {s s' : St} (h : downloadTarget x tf given base s = (.ok (path, data), s'))
    (hc : s.trusted.root.signed.consistentSnapshot = true) (hp : x.cfg.prefixTargetsWithHash = true) (hh : tf.hashes.entries ≠ []) (hd : 2 ≤ tf.path.count 47) :
    ∃ b name, TargetBase x base b ∧ downloads s'.world.trace = downloads s.world.trace ++ [(b ++ name, tf.length, .ok data)] ∧ ∀ hash, ¬ PrefixedName tf.path hash name := by
  rcases downloadTarget_run (x := x) tf given base s with ⟨e, h1, _⟩ | ⟨p, b, name, r, fs', pre, evs, h1, h2, h3, h4, h5, h6⟩
  · rw [h1] at h; cases h
  · rw [h1] at h
    cases h
    rcases h4 with ⟨_, _, ⟨alg, v, h7, rfl⟩ | ⟨h7, _⟩⟩ | ⟨h7 | h7, _⟩
    · refine ⟨b, prefixedPath tf.path (hexEncode v), h3, ?_, fun hash hn => prefixedPath_deep hd (hexEncode_noSlash v) hn rfl⟩
      have hpre : downloads (s.world.trace ++ (pre ++ evs)) = downloads s.world.trace ++ downloads evs := by
        rcases h5 with rfl | ⟨o, rfl⟩ <;> simp [downloads]
      rw [hpre]
      cases h6 <;> rfl
    · exact absurd h7 hh
    · rw [hc] at h7; cases h7
    · rw [hp] at h7; cases h7

/-- The negation of C88 for all paths with two or more slashes: if the server only has the names that the specification asks for, then with consistent snapshots and hash prefixes no such target can
be downloaded. -/
theorem C88_deep {srv : Str → Int → Except Err Bytes} (hs : Serves x.host srv) {tf : TargetFiles} {given base : Str} {s : St} (hc : s.trusted.root.signed.consistentSnapshot = true)
    (hp : x.cfg.prefixTargetsWithHash = true) (hh : tf.hashes.entries ≠ []) (hd : 2 ≤ tf.path.count 47)
    (honest : ∀ b name n, TargetBase x base b → (∀ hash, ¬ PrefixedName tf.path hash name) → ∃ e, srv (b ++ name) n = .error e) (r : Str × Bytes) :
    (downloadTarget x tf given base s).1 ≠ .ok r := by
  intro hr
  rcases hx : downloadTarget x tf given base s with ⟨o, s'⟩
  rw [hx] at hr
  dsimp only at hr
  subst hr
  unfold downloadTarget at hx
  obtain ⟨f, s1, h1, hx⟩ := SM.bind_eq_ok.1 hx
  obtain ⟨b, s2, h2, hx⟩ := SM.bind_eq_ok.1 hx
  obtain ⟨t, s3, h3, hx⟩ := SM.bind_eq_ok.1 hx
  obtain ⟨name, s4, h4, hx⟩ := SM.bind_eq_ok.1 hx
  obtain ⟨data, s5, h5, hx⟩ := SM.bind_eq_ok.1 hx
  have e1 : s1 = s := (congrArg Prod.snd h1).symm
  have e2 : s2 = s1 := (congrArg Prod.snd h2).symm
  have e3 : t = s2.trusted ∧ s3 = s2 := by cases h3; exact ⟨rfl, rfl⟩
  have hb : TargetBase x base b := by
    rcases targetBase_cases (x := x) base with ⟨b', k1, k2⟩ | ⟨⟨e, k1⟩, _⟩
    · rw [k1] at h2; cases h2; exact k2
    · rw [k1] at h2; cases h2
  obtain ⟨name', evs, k1, _, k3⟩ := targetURLPath_cases (x := x) t tf s3.world
  have e4 : name' = name := by
    rw [onWorld_apply, k1] at h4
    cases h4
    rfl
  subst e4
  rw [e3.1, e2, e1] at k3
  have hname : ∀ hash, ¬ PrefixedName tf.path hash name' := by
    rcases k3 with ⟨_, _, ⟨alg, v, h7, rfl⟩ | ⟨h7, _⟩⟩ | ⟨h7 | h7, _⟩
    · exact fun hash hn => prefixedPath_deep hd (hexEncode_noSlash v) hn rfl
    · exact absurd h7 hh
    · rw [hc] at h7; cases h7
    · rw [hp] at h7; cases h7
  obtain ⟨e, k4⟩ := honest b name' tf.length hb hname
  rw [onWorld_apply] at h5
  unfold doFetch at h5
  dsimp only at h5
  rw [hs, k4] at h5
  cases h5

end

/-! ## A concrete case -/

namespace Sample

/-- The info of a target two directories down. -/
def deepInfo : TargetFiles := { length := 2, hashes := some [(b!"sha256", digest [7, 7])], path := b!"a/b/c" }
/-- A server that has the target under the given name and nothing else. -/
def deepServer (name url : Str) : Except Err Bytes := if url = b!"u/targets/" ++ name then .ok [7, 7] else .error (.downloadHTTP 404 url)
/-- The client. -/
def deepCtx (name : Str) : Ctx := { ctx with host := hostOf (deepServer name), cfg := { cfg with prefixTargetsWithHash := true } }
/-- The name by the specification and the name that is requested. -/
def rightName : Str := b!"a/b/" ++ hexEncode (digest [7, 7]) ++ b!".c"
def wrongName : Str := b!"a/" ++ hexEncode (digest [7, 7]) ++ b!".b/c"

end Sample
open Tuf.Sample

/-- The target is published under its name, with the listed contents, and cannot be downloaded; it can from a server that has it under the wrong name. -/
example : PrefixedName deepInfo.path (hexEncode (digest [7, 7])) rightName ∧ (deepCtx rightName).host.fetch [] (b!"u/targets/" ++ rightName) 2 = .ok [7, 7] ∧
    isErr (session (deepCtx rightName) [] (downloadTarget (deepCtx rightName) deepInfo [] [])).1 = true ∧
    (session (deepCtx wrongName) [] (downloadTarget (deepCtx wrongName) deepInfo [] [])).1 = .ok (b!"t/a%2Fb%2Fc", [7, 7]) :=
  ⟨⟨b!"a/b/", b!"c", rfl, by decide, .inr ⟨b!"a/b", rfl⟩, rfl⟩, (show deepServer rightName _ = _ from if_pos rfl), by decide +kernel, by decide +kernel⟩

/-- `C88_deep` applies to that server. -/
example (s : St) (hc : s.trusted.root.signed.consistentSnapshot = true) (r : Str × Bytes) : (downloadTarget (deepCtx rightName) deepInfo [] [] s).1 ≠ .ok r := by
  refine C88_deep (srv := fun url _ => deepServer rightName url) (fun _ _ _ => rfl) hc rfl (by decide +kernel) (by decide +kernel) ?_ r
  intro b name n hb hn
  have hb' : b = b!"u/targets/" := by
    cases hb with
    | given h _ => exact absurd rfl h
    | configured _ _ h =>
      rcases h with ⟨_, h⟩ | ⟨h, _⟩
      · have h' : b!"/" <:+ b!"u/targets" := h
        exact absurd h' (by decide)
      · exact h
  subst hb'
  have h1 : name ≠ rightName := fun h => hn (hexEncode (digest [7, 7])) ⟨b!"a/b/", b!"c", rfl, by decide, .inr ⟨b!"a/b", rfl⟩, by rw [h]; rfl⟩
  exact ⟨_, if_neg (fun h => h1 (List.append_cancel_left h))⟩

end Tuf
