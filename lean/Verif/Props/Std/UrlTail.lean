import Verif.Proofs.Std.UrlTail
import Verif.Props.Std.Url

/-! # URLs with a query or a fragment (C112) -/

namespace Tuf
open Tuf.Spec Tuf.Sample Tuf.Std

theorem sentPath_tail {a t : Str} (h : ∀ c ∈ a, c ≠ 63 ∧ c ≠ 35) (ht : t.head? = some 63 ∨ t.head? = some 35) (r : Str) : sentPath (a ++ t ++ r) = a := by
  unfold sentPath
  match t, ht with
  | c :: t, ht =>
    rw [List.append_assoc, List.takeWhile_append_of_pos (by intro d hd; simpa using h d hd)]
    have : (!(c == 63 || c == 35)) = false := by
      simp only [List.head?_cons, Option.some.injEq] at ht
      rcases ht with rfl | rfl <;> rfl
    rw [List.cons_append, List.takeWhile_cons, this]
    simp

theorem urlTail_head {t t' : Str} (h : UrlTail t t') : (t.head? = some 63 ∨ t.head? = some 35) ∧ (t' = [] ∨ t' = t) := by
  cases h with
  | query => exact ⟨.inl rfl, .inr rfl⟩
  | fragment => exact ⟨.inr rfl, .inr rfl⟩
  | emptyFragment => exact ⟨.inr rfl, .inl rfl⟩
  | both => exact ⟨.inl rfl, .inr rfl⟩

theorem slashBase_prefix {a b : Str} (h : SlashBase a b) : ∃ r, b = a ++ r := by
  rcases h with ⟨rfl, _⟩ | ⟨rfl, _⟩
  · exact ⟨[], (List.append_nil _).symm⟩
  · exact ⟨_, rfl⟩

section
variable {env : Env}

/-- `config.New` with a query or a fragment: the name of the targets folder goes before it. -/
theorem new_tail (hu : env.urlJoin = urlJoinPath) {base norm t t' : Str} (h : RepoURL base norm) (ht : UrlTail t t') (root : Bytes) :
    ∃ c, Cfg.new env (base ++ t) root = .ok c ∧ c.remoteMetadataURL = base ++ t ∧ c.remoteTargetsURL = norm ++ b!"/targets" ++ t' := by
  have hj := join_url_tail h (e := b!"targets") (dirName_plain (by decide)) ht
  unfold Cfg.new
  rw [hu, hj]
  exact ⟨_, rfl, rfl, by simp⟩

/-- C112 is false for every repository URL with a query or a fragment: `config.New` accepts it, but every metadata file that `Refresh` and `GetTargetInfo` request is asked for at one
and the same path, that of the URL itself. -/
theorem C112_tail_metadata (hu : env.urlJoin = urlJoinPath) {base norm t t' : Str} (hr : RepoURL base norm) (ht : UrlTail t t') (root : Bytes) :
    ∃ c, Cfg.new env (base ++ t) root = .ok c ∧ ∀ (x : Ctx), x.cfg.remoteMetadataURL = c.remoteMetadataURL → ∀ (a : Api), (a = .refresh ∨ ∃ path, a = .getTargetInfo path) → ∀ s : St,
      ∃ evs, (a.run x s).2.world.trace = s.world.trace ++ evs ∧ ∀ e ∈ evs, ∀ u n r, e = .fetch u n r → sentPath u = base := by
  obtain ⟨c, k1, k2, _⟩ := new_tail hu hr ht root
  refine ⟨c, k1, fun x hx a ha s => ?_⟩
  rw [k2] at hx
  obtain ⟨scheme, rest, _, _, hcl⟩ := repoURL_shape hr
  have hp : ∀ b r, SlashBase x.cfg.remoteMetadataURL b → sentPath (b ++ r) = base := by
    intro b r hb
    obtain ⟨w, rfl⟩ := slashBase_prefix hb
    rw [hx, List.append_assoc]
    exact sentPath_tail (fun c hc => ⟨(hcl c hc).2.1, (hcl c hc).1⟩) (urlTail_head ht).1 _
  have h1 : ∀ {role u}, PlainURL x.cfg.remoteMetadataURL role u → sentPath u = base := by
    rintro role u ⟨b, hb, rfl⟩
    rw [List.append_assoc]
    exact hp b _ hb
  have h2 : ∀ {role v u}, VersionedURL x.cfg.remoteMetadataURL role v u → sentPath u = base := by
    rintro role v u ⟨b, hb, rfl⟩
    simp only [List.append_assoc]
    exact hp b _ hb
  have h3 : ∀ {t role v u}, RoleURL x t role v u → sentPath u = base := by
    rintro t role v u (⟨_, h⟩ | ⟨_, h⟩)
    · exact h2 h
    · exact h1 h
  obtain ⟨evs, h4, h5⟩ := C33_urls (x := x) ha s
  refine ⟨evs, h4, fun e he u n r her => ?_⟩
  obtain ⟨t, _, h | h | ⟨_, _, _, _, h⟩ | ⟨_, _, _, _, _, h⟩⟩ := h5 e he u n r her
  · exact h2 h
  · exact h1 h
  · exact h3 h
  · exact h3 h

/-- C112 is false for targets too: with a query or a fragment that is not empty every target is asked for at the path of the folder; an empty fragment (`#` at the end) is dropped, and targets,
unlike metadata, are requested below the folder. -/
theorem C112_tail_targets (hu : env.urlJoin = urlJoinPath) {base norm t t' : Str} (hr : RepoURL base norm) (ht : UrlTail t t') (root : Bytes) :
    ∃ c, Cfg.new env (base ++ t) root = .ok c ∧ ∀ (x : Ctx), x.cfg.remoteTargetsURL = c.remoteTargetsURL → ∀ (tf : TargetFiles) (given file : Str) (data : Bytes) (s s' : St),
      downloadTarget x tf given [] s = (.ok (file, data), s') →
      ∃ url, downloads s'.world.trace = downloads s.world.trace ++ [(url, tf.length, .ok data)] ∧
        (t' ≠ [] → sentPath url = norm ++ b!"/targets") ∧ (t' = [] → ∃ name, url = norm ++ b!"/targets/" ++ name) := by
  obtain ⟨c, k1, _, k2⟩ := new_tail hu hr ht root
  refine ⟨c, k1, fun x hx tf given file data s s' h => ?_⟩
  rw [k2] at hx
  rcases downloadTarget_run (x := x) tf given [] s with ⟨e, h1, _⟩ | ⟨p, b, name, r, fs', pre, evs, h1, h2, h3, h4, h5, h6⟩
  · rw [h1] at h; cases h
  · have hb : SlashBase x.cfg.remoteTargetsURL b := by
      cases h3 with
      | given h0 => exact absurd rfl h0
      | configured _ _ h4 => exact h4
    refine ⟨b ++ name, ?_, fun hne => ?_, fun h0 => ?_⟩
    · rw [h1] at h
      cases h
      have hpre : downloads (s.world.trace ++ (pre ++ evs)) = downloads s.world.trace ++ downloads evs := by
        rcases h5 with rfl | ⟨o, rfl⟩ <;> simp [downloads]
      rw [hpre]
      cases h6 <;> rfl
    · obtain ⟨w, rfl⟩ := slashBase_prefix hb
      rw [hx, List.append_assoc]
      have hclean := (repoURL_shape_norm hr)
      refine sentPath_tail ?_ ((urlTail_head ht).2.resolve_left hne ▸ (urlTail_head ht).1) _
      intro c hc
      rcases List.mem_append.1 hc with hc | hc
      · exact ⟨(hclean c hc).2.1, (hclean c hc).1⟩
      · exact (by decide : ∀ c ∈ b!"/targets", c ≠ 63 ∧ c ≠ 35) c hc
    · rw [hx, h0, List.append_nil] at hb
      refine ⟨name, ?_⟩
      rcases hb with ⟨_, l, hl⟩ | ⟨rfl, _⟩
      · have := congrArg List.getLast? hl
        simp at this
      · simp

end

/-- URLs with a query, a fragment with a raw spelling (`'` and a small hexadecimal digit), both, and an empty query and fragment; and the targets URL of a configuration for them. -/
example : RepoURL b!"http://h/m" b!"http://h/m" ∧ UrlTail b!"?x=1#a'%c3" b!"?x=1#a'%c3" ∧ UrlTail b!"?" b!"?" ∧ UrlTail b!"#" [] ∧
    urlEnv.urlJoin = urlJoinPath ∧ urlJoinPath b!"http://h/m?x=1#a'%c3" b!"targets" = some b!"http://h/m/targets?x=1#a'%c3" ∧
    urlJoinPath b!"http://h/m?" b!"targets" = some b!"http://h/m/targets?" ∧ urlJoinPath b!"http://h/m#" b!"targets" = some b!"http://h/m/targets" ∧
    sentPath b!"http://h/m?x=1/2.root.json" = b!"http://h/m" := by
  refine ⟨.path (server := b!"http://h") (ps := [b!"m"]) ?_ (by decide) ?_, .both (q := b!"x=1") (f := b!"a'%c3") ?_ ?_ (by decide), .query (q := []) (by simp), .emptyFragment, rfl,
    by decide +kernel, by decide +kernel, by decide +kernel, by decide +kernel⟩
  · exact .mk (scheme := b!"http") (user := []) (host := b!"h") (port := []) (.mk (by decide) (by decide)) .none (.name (by decide) (by decide)) .none
  · intro p hp
    rw [List.mem_singleton] at hp
    subst hp
    exact dirName_plain (by decide)
  · unfold QueryByte; decide
  · exact .byte (by unfold FragByte; decide) (.byte (by unfold FragByte; decide) (.escape (by unfold EscDigit; decide) (by unfold EscDigit; decide) .nil))

end Tuf
