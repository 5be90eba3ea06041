import Verif.Props.Refusal
import Verif.Props.Mirror
import Verif.Props.Builds
import Verif.Props.SocketFs
import Verif.Props.Options
import Verif.Props.Print
import Verif.Props.Local
import Verif.Props.Effort
/-
Claims that are false as stated: exactly where they hold.
-/
namespace SudoPair
open Spec Core

/-! ### C01 -/

/-- C01, exactly: a session that is not exempt and for which `open` returned 1 was approved by a pair if and
only if its command path is not empty after decoding; if it is empty, nothing at all happened. -/
theorem C01_boundary (rt : Rt) (a : OpenArgs) (st st' : State) (env : IoEnv) (h : Hist)
    (hr : Runs (Core.open rt a st) (.ok (1, st')) h) (henv : st'.env = some env) (hx : ¬ SessionExempt env) :
    ((∃ fd, ApprovedSession env fd h) ↔ env.commandInfo.command ≠ []) ∧
    (env.commandInfo.command = [] → h = []) := by
  have hnil : env.commandInfo.command = [] → h = [] := by
    intro hc
    generalize ho : Out.ok ((1 : Int), st') = o at hr
    cases coreOpen_runs hr with
    | empty => rfl
    | accepted k1 k2 k3 k4 =>
      simp only [Out.ok.injEq, Prod.mk.injEq] at ho
      obtain ⟨_, rfl⟩ := ho
      simp only [Option.some.injEq] at henv
      subst henv; exact absurd hc k2
    | again k1 k2 k3 k4 k5 =>
      simp only [Out.ok.injEq, Prod.mk.injEq] at ho
      obtain ⟨_, rfl⟩ := ho
      simp only [Option.some.injEq] at henv
      subst henv; exact absurd hc k2
    | _ => simp at ho
  refine ⟨⟨?_, fun hc => C01_approval_partial rt a st st' env h hr henv hc hx⟩, hnil⟩
  rintro ⟨fd, ha⟩ hc
  rw [hnil hc] at ha
  obtain ⟨h1, h2, h3, lfd, conn, e, c, t, u, k, _⟩ := ha
  simp at k

/-! ### C05 -/

/-- C05, exactly: after `open` has returned 1 for an exempt session, the log callbacks let everything pass, and
do nothing, if and only if the command path is not empty after decoding. -/
theorem C05_boundary (rt : Rt) (tr : List Item) (st : State) (env : IoEnv) (a : OpenArgs) (h : Hist)
    (c : Call) (hx : Exec rt Core.init tr st) (ho : OpenedBy tr a 1 h) (henv : st.env = some env)
    (hex : SessionExempt env) (hc : c.isLog) :
    (∀ s, (Core.step rt c st s).1 = .ok (1, st) ∧ (Core.step rt c st s).2.1 = []) ↔
      env.commandInfo.command ≠ [] := by
  constructor
  · intro hall he
    have hp : st.plugin = none := by
      cases hp : st.plugin with
      | none => rfl
      | some p =>
        obtain ⟨env', a', h', he', _, hcmd, _⟩ := (session_inv hx).2 p hp
        rw [henv] at he'
        simp only [Option.some.injEq] at he'
        subst he'
        exact absurd he hcmd
    have h1 := (step_log_none (rt := rt) (c := c) (st := st) hc (Or.inr hp) ⟨[], rfl, rfl⟩).1
    rw [(hall []).1] at h1
    simp at h1
  · intro hcmd s
    exact C05_logs_partial rt tr st env a h c s hx ho henv hex hcmd hc

/-! ### C07 -/

theorem userFile_first {S : Session} {s : Sched} (hk : (runMachine S.move .userFile s).1 ≠ .killed) :
    ∃ e h, (runMachine S.move .userFile s).2.1 = e :: h ∧ e.call = .readFile S.userFile := by
  cases s with
  | nil => exact absurd rfl hk
  | cons a s => exact ⟨_, _, rfl, rfl⟩

/-- C07, exactly: of the sessions that need a pair, run as another user and were given `-g v`, those are refused
before any prompt is shown or any socket is created for which `v` is UTF-8. -/
theorem C07_boundary (rt : Rt) (a : OpenArgs) (env : IoEnv) (v : Bytes) (r : Int) (st' : State) (h : Hist)
    (hnew : IoEnv.new rt a = some (.ok env)) (hv : Value a.settings (b! "runas_group") v)
    (hcmd : env.commandInfo.command ≠ []) (hx : ¬ SessionExempt env)
    (hd : ¬ (rt.debug = true ∧ Trips env (optionsOf env)))
    (hu : env.commandInfo.runasEuid ≠ env.userInfo.uid)
    (hr : Runs (Core.open rt a Core.init) (.ok (r, st')) h) :
    ((r = -1 ∧ ∀ e ∈ h, ∃ level fmt, e.call = .printf level fmt) ↔ Utf8 v) ∧
    (¬ Utf8 v → ∃ e h', h = e :: h' ∧ e.call = .readFile (optionsOf env).userPromptPath) := by
  have hro : ReadsOpt a.settings (b! "runas_group") DenotesS env.settings.runasGroup := by
    have := (C52_environment hnew).2.2.2.1
    unfold SettingsFrom at this
    exact this.2.2.2.2.2.2.2.2.2.2.2.2.2.2.2.2.2.2.2.1
  have hfirst : ¬ Utf8 v → ∃ e h', h = e :: h' ∧ e.call = .readFile (optionsOf env).userPromptPath := by
    intro hn
    have hg : env.settings.runasGroup = none := by
      cases hg : env.settings.runasGroup with
      | none => rfl
      | some g =>
        obtain ⟨w, h1, h2, _⟩ := (hro g).1 hg
        cases value_unique hv h1
        exact absurd h2 hn
    obtain ⟨s, h1, h2⟩ := hr
    have hx := C63_exact (s := s) (Protocol.openAsk (rt := rt) (a := a) (st := Core.init) (env0 := env) (env := env) hnew rfl hcmd hd hx
      (fun h => h.2 hg) (sessionOf_sessionFor rt env a.hasPrintf _))
    change Core.open rt a Core.init s = _ at hx
    rw [hx] at h1 h2
    rcases hm : runMachine (sessionFor rt env a.hasPrintf (Core.init.plugin.isSome)).move .userFile s with ⟨o, h', s'⟩
    rw [hm] at h1 h2
    have hk : (runMachine (sessionFor rt env a.hasPrintf (Core.init.plugin.isSome)).move .userFile s).1 ≠ .killed := by
      rw [hm]; rintro rfl; simp [withResult] at h1
    obtain ⟨e, t, k1, k2⟩ := userFile_first hk
    rw [hm] at k1
    simp only at k1
    subst k1
    refine ⟨e, t, ?_, k2⟩
    rw [← h2]
    cases o <;> rfl
  refine ⟨⟨?_, fun hutf => ?_⟩, hfirst⟩
  · rintro ⟨_, hp⟩
    refine Classical.byContradiction fun hn => ?_
    obtain ⟨e, h', rfl, he⟩ := hfirst hn
    obtain ⟨l, f, hc⟩ := hp e (by simp)
    rw [he] at hc
    simp at hc
  · have hg : env.settings.runasGroup ≠ none := by
      intro hg
      have := (hro v).2 ⟨v, hv, hutf, rfl⟩
      rw [hg] at this
      simp at this
    have := C07_rejected_partial rt a Core.init env _ h hnew hcmd hx hu hg hr
    refine ⟨?_, this.2⟩
    rcases this.1 with h1 | ⟨_, h1, _⟩
    · simp at h1
    · simp only [Out.ok.injEq, Prod.mk.injEq] at h1
      exact h1.1

/-! ### C16 -/

/-- C16, exactly: among the file types of POSIX the bit that is tested is set for directories, block devices and
sockets, and for nothing else. -/
theorem C16_boundary (mode : Nat) (ht : mode &&& 0o170000 ∈ fileTypes) :
    mode &&& 0o040000 ≠ 0 ↔
      isDirectory mode ∨ mode &&& 0o170000 = 0o060000 ∨ mode &&& 0o170000 = 0o140000 := by
  refine ⟨fun h => C16_types_partial mode h ht, ?_⟩
  have hm : mode &&& 0o040000 = (mode &&& 0o170000) &&& 0o040000 := by
    rw [Nat.and_assoc, (by decide : (0o170000 &&& 0o040000 : Nat) = 0o040000)]
  rw [hm]
  rintro (h | h | h)
  · unfold isDirectory at h; rw [h]; decide
  · rw [h]; decide
  · rw [h]; decide

/-! ### C20 -/

theorem runs_step {rt f buf st} {r : Int} {h} (hr : Runs (Core.log rt f buf st) (.ok r) h) :
    Runs (Core.step rt (.log f buf) st) (.ok (r, st)) h := by
  obtain ⟨s, h1, h2⟩ := hr
  refine ⟨s, ?_⟩
  rw [show Core.step rt (.log f buf) st s = (Core.log rt f buf st >>= fun r => pure (r, st)) s from rfl]
  rcases hc : Core.log rt f buf st s with ⟨o, h', s'⟩
  rw [hc] at h1 h2
  subst h1 h2
  rw [M.bind_ok hc]
  exact ⟨rfl, List.append_nil _⟩

/-- C20, exactly: when the hint is on and a callback of a connected session returned 1, what was sent is the payload
for output, and nothing for input. -/
theorem C20_boundary (rt : Rt) (env : IoEnv) (p : Pair) (fd : Nat) (f : Facility) (buf : Bytes)
    (h : Hist) (hs : p.socket = some fd) (hb : buf ≠ []) (hh : wanted env.commandInfo f = true)
    (hr : Runs (Core.log rt f buf ⟨some env, some p⟩) (.ok 1) h) :
    (delivered fd h = buf ↔ f = .ttyout ∨ f = .stdout ∨ f = .stderr) ∧
    (f = .ttyin ∨ f = .stdin → delivered fd h = []) := by
  have hin : f = .ttyin ∨ f = .stdin → delivered fd h = [] := by
    rintro (rfl | rfl)
    · have := step_mirror (c := .log .ttyin buf) hs trivial (by simp) (runs_step hr)
      simpa [payload] using this.pre
    · exact delivered_prints (step_stdin (runs_step hr)).1 fd
  refine ⟨⟨fun hd => ?_, ?_⟩, hin⟩
  · cases f with
    | ttyin => exact absurd (hd.symm.trans (hin (Or.inl rfl))) hb
    | stdin => exact absurd (hd.symm.trans (hin (Or.inr rfl))) hb
    | ttyout => exact Or.inl rfl
    | stdout => exact Or.inr (Or.inl rfl)
    | stderr => exact Or.inr (Or.inr rfl)
  · intro hf
    refine C20_hint_on_partial rt env p fd f buf h hs ?_ hr
    rcases hf with rfl | rfl | rfl
    · exact Or.inl ⟨rfl, hh⟩
    · exact Or.inr (Or.inl ⟨rfl, hh⟩)
    · exact Or.inr (Or.inr ⟨rfl, hh⟩)

/-! ### C21 -/

/-- C21, exactly: in a reachable state of a session that is not exempt, redirected input is refused if and only if
sudo was told to log it (or no pairing is stored, when everything is refused). -/
theorem C21_boundary (rt : Rt) (tr : List Item) (st st' : State) (env : IoEnv) (buf : Bytes)
    (r : Int) (h : Hist) (hx : Exec rt Core.init tr st) (henv : st.env = some env)
    (hne : ¬ SessionExempt env) (hr : Runs (Core.step rt (.log .stdin buf) st) (.ok (r, st')) h) :
    (r = 0 ↔ env.commandInfo.iologStdin = true ∨ st.plugin = none) ∧ (r = 0 ∨ r = 1 ∧ h = []) := by
  by_cases hh : env.commandInfo.iologStdin = true
  · have := (C21_stdin_refused_partial rt tr st st' env buf r h hx henv hne hh hr).1
    exact ⟨⟨fun _ => Or.inl hh, fun _ => this⟩, Or.inl this⟩
  · cases hp : st.plugin with
    | none =>
      have := (step_log_none (c := .log .stdin buf) trivial (Or.inr hp) hr).1
      simp only [Out.ok.injEq, Prod.mk.injEq] at this
      exact ⟨⟨fun _ => Or.inr rfl, fun _ => this.1⟩, Or.inl this.1⟩
    | some p =>
      obtain ⟨e, q⟩ := st
      simp only at henv hp
      subst henv hp
      have := (step_stdin hr).2.1 (by simpa using hh)
      simp only [Out.ok.injEq, Prod.mk.injEq] at this
      obtain ⟨⟨rfl, _⟩, rfl⟩ := this
      refine ⟨⟨fun h => absurd h (by decide), ?_⟩, Or.inr ⟨rfl, rfl⟩⟩
      rintro (h | h)
      · exact absurd h hh
      · simp at h

/-! ### C33 -/

/-- `g` is an element of the comma-separated list `v`. -/
def ListedGid (v : Bytes) (g : Nat) : Prop :=
  ∃ (first : Bytes) (rest : List Bytes), v = first ++ rest.flatMap (fun p => 44 :: p) ∧
    (∀ p ∈ first :: rest, (44 : UInt8) ∉ p) ∧ ∃ p ∈ first :: rest, DenotesU 32 p g

theorem listed_mem {v : Bytes} {xs : List Nat} {g : Nat} (h : DenotesIds v xs) (hl : ListedGid v g) : g ∈ xs := by
  obtain ⟨f, r, h1, h2, h3, h4⟩ := h
  obtain ⟨f', r', k1, k2, p, hp, hd⟩ := hl
  have e1 := splitOn_eq_cons.2 ⟨h1, h2⟩
  have e2 := splitOn_eq_cons.2 ⟨k1, k2⟩
  rw [e1] at e2
  rw [← e2] at hp
  obtain ⟨i, hi, hpi⟩ := List.getElem_of_mem hp
  have hix : i < xs.length := h3 ▸ hi
  have hz : (p, xs[i]) ∈ (f :: r).zip xs := by
    rw [← hpi, ← List.getElem_zip (h := by rw [List.length_zip]; exact Nat.lt_min.2 ⟨hi, hix⟩)]
    exact List.getElem_mem _
  have hd' := (parseUInt_iff ..).2 (h4 _ hz)
  rw [(parseUInt_iff ..).2 hd] at hd'
  cases hd'
  exact List.getElem_mem hix

/-- C33, exactly: all the listed gids are enforced if and only if every element of the list is a gid, or no gid but 0
is listed; otherwise gid 0 alone is enforced. -/
theorem C33_boundary (vec : Option (List Bytes)) (v : Bytes) (hv : Value vec (b! "gids_enforced") v) :
    ((∀ g, ListedGid v g → g ∈ (PluginOptions.ofMap (.fromRaw vec)).gidsEnforced) ↔
      (∃ xs, DenotesIds v xs) ∨ ∀ g, ListedGid v g → g = 0) ∧
    ((∃ xs, DenotesIds v xs) ∨ (PluginOptions.ofMap (.fromRaw vec)).gidsEnforced = [0]) := by
  by_cases hwf : ∃ xs, DenotesIds v xs
  · refine ⟨⟨fun _ => Or.inl hwf, fun _ g hg => ?_⟩, Or.inl hwf⟩
    obtain ⟨xs, hxs⟩ := hwf
    exact (C33_enforced_partial vec v xs hv hxs g).2 (listed_mem hxs hg)
  · have h0 := C33_malformed vec v hv hwf
    refine ⟨⟨fun h => Or.inr fun g hg => ?_, ?_⟩, Or.inr h0⟩
    · have := h g hg
      rw [h0] at this
      simpa using this
    · rintro (h | h) g hg
      · exact absurd h hwf
      · rw [h0, h g hg]; simp

/-! ### C49 -/

/-- C49, exactly: an `open` whose arguments are accepted leaves the environment of those arguments behind if and only
if none was stored before, or the very same one. -/
theorem C49_boundary (rt : Rt) (a : OpenArgs) (st st' : State) (env0 : IoEnv) (r : Int) (h : Hist)
    (hnew : IoEnv.new rt a = some (.ok env0)) (hr : Runs (Core.open rt a st) (.ok (r, st')) h) :
    (st'.env = some env0 ↔ st.env = none ∨ st.env = some env0) ∧
    (∀ env, st.env = some env → st'.env = some env) := by
  have key : st'.env = some (effEnv st env0) := by
    generalize ho : Out.ok (r, st') = o at hr
    have hsub : ∀ {e}, IoEnv.new rt a = some (.ok e) → e = env0 := by
      intro e he; rw [hnew] at he; simpa using he.symm
    cases coreOpen_runs hr with
    | envPanic k => rw [hnew] at k; simp at k
    | envErr k => rw [hnew] at k; simp at k
    | empty k =>
      cases hsub k
      simp only [Out.ok.injEq, Prod.mk.injEq] at ho
      obtain ⟨_, rfl⟩ := ho; rfl
    | panic k =>
      cases hsub k
      simp only [Out.ok.injEq, Prod.mk.injEq] at ho
      obtain ⟨_, rfl⟩ := ho; rfl
    | refused k =>
      cases hsub k
      simp only [Out.ok.injEq, Prod.mk.injEq] at ho
      obtain ⟨_, rfl⟩ := ho; rfl
    | accepted k =>
      cases hsub k
      simp only [Out.ok.injEq, Prod.mk.injEq] at ho
      obtain ⟨_, rfl⟩ := ho; rfl
    | again k =>
      cases hsub k
      simp only [Out.ok.injEq, Prod.mk.injEq] at ho
      obtain ⟨_, rfl⟩ := ho; rfl
    | _ => simp at ho
  rw [key]
  unfold effEnv
  cases st.env with
  | none => simp
  | some e => simp

/-! ### C40 -/

theorem render_count : ∀ {s t : Bytes}, render s = some t → s.count 37 = 2 * t.count 37
  | [], t, h => by cases h; rfl
  | [b], t, h => by
    by_cases hb : b = 37
    · subst hb; cases h
    · have : render [b] = some [b] := render_plain (by simpa using Ne.symm hb)
      rw [this] at h
      cases h
      simp [hb]
  | b :: c :: s, t, h => by
    rw [render] at h
    split at h
    · next hb =>
      split at h
      · next hc =>
        obtain ⟨u, hu, rfl⟩ := Option.map_eq_some_iff.1 h
        have := render_count hu
        subst hb hc
        simp only [List.count_cons_self]
        omega
      · cases h
    · next hb =>
      obtain ⟨u, hu, rfl⟩ := Option.map_eq_some_iff.1 h
      have := render_count hu
      rw [List.count_cons_of_ne hb, List.count_cons_of_ne hb]
      exact this

theorem screen_cons_wrote {l fmt n} {h : Hist} {x : Bytes}
    (hs : screen ((⟨.printf l fmt, .wrote n⟩ : Ev) :: h) = some x) :
    ∃ t u, render fmt = some t ∧ screen h = some u ∧ x = t ++ u := by
  simp only [screen] at hs
  obtain ⟨t, ht, hs⟩ := Option.bind_eq_some_iff.1 hs
  obtain ⟨u, hu, rfl⟩ := Option.map_eq_some_iff.1 hs
  exact ⟨t, u, ht, hu, rfl⟩

/-- C40, exactly: a text that was printed successfully is shown verbatim if and only if it has no percent sign. -/
theorem C40_boundary {pf : PrintFacility} {buf : Bytes} {h} (hr : Runs (pf.writeAll buf) (.ok true) h)
    (ht : PrintfTruth h) : screen h = some buf ↔ (37 : UInt8) ∉ buf := by
  refine ⟨?_, fun hpc => (printWriteAll_printed hr hpc ht).yes rfl⟩
  have key : wp (pf.writeAll buf) fun _ h => PrintfTruth h → screen h = some buf → (37 : UInt8) ∉ buf := by
    have hone : ∀ (buf : Bytes) r, buf ≠ [] → PrintfTruth [(⟨.printf pf.level buf, r⟩ : Ev)] →
        (∀ n, r = .wrote n → n = 0 ∨ buf.length < n) → screen [(⟨.printf pf.level buf, r⟩ : Ev)] ≠ some buf := by
      intro buf r hne ht hr hs
      rcases r with n | _ | _
      · obtain ⟨t, u, h1, h2, h3⟩ := screen_cons_wrote hs
        have hn := ht pf.level buf n t (by simp) h1
        simp only [screen, Option.some.injEq] at h2
        subst h2
        rw [List.append_nil] at h3
        subst h3
        rcases hr n rfl with h | h
        · exact hne (List.eq_nil_of_length_eq_zero (by omega))
        · omega
      · simp only [screen, Option.some.injEq] at hs; exact hne hs.symm
      · simp only [screen, Option.some.injEq] at hs; exact hne hs.symm
    have hno : ∀ buf : Bytes, buf ≠ [] → screen [] = some buf → (37 : UInt8) ∉ buf := by
      intro buf hne hs
      simp only [screen, Option.some.injEq] at hs; exact absurd hs.symm hne
    refine wp_writeAll (P := fun buf _ h => PrintfTruth h → screen h = some buf → (37 : UInt8) ∉ buf) ?_ ?_ ?_ buf
    · intro _ _; simp
    · intro buf hne _; exact hno buf hne
    · intro buf hne
      unfold PrintFacility.write
      refine wp_ite (fun _ => wp_pure fun _ => hno buf hne) (fun _ => wp_ite (fun _ => wp_pure fun _ => hno buf hne)
        (fun h0 => wp_sys (fun _ => hno buf hne) ?_))
      rintro ((_ | n) | _ | _)
      · intro h1 h2
        exact absurd h2 (hone buf _ hne h1 (fun n hn => by cases hn; exact Or.inl rfl))
      · refine ⟨fun hle o h' hp h1 h2 => ?_, fun hlt h1 h2 => ?_⟩
        · obtain ⟨t, u, k1, k2, k3⟩ := screen_cons_wrote h2
          have hn := h1 pf.level buf (n + 1) t (by simp) k1
          have ht : t = buf.take (n + 1) := by rw [hn, k3]; simp
          have hu : u = buf.drop (n + 1) := by rw [hn, k3]; simp
          have h3 := hp (PrintfTruth.right (a := [_]) h1) (by rw [← hu]; exact k2)
          have h4 := render_count k1
          have h5 : u.count 37 = 0 := List.count_eq_zero.2 (by rw [hu]; exact h3)
          have h6 : buf.count 37 = t.count 37 + u.count 37 := by rw [← List.count_append, ← k3]
          exact List.count_eq_zero.1 (by omega)
        · exact absurd h2 (hone buf _ hne h1 (fun m hm => by cases hm; exact Or.inr hlt))
      · intro o h' hp h1 h2
        exact hp (PrintfTruth.right (a := [_]) h1) (by simpa [screen] using h2)
      · intro h1 h2
        exact absurd h2 (hone buf _ hne h1 (fun n hn => by cases hn))
  exact wp_iff_runs.1 key _ h hr ht

/-! ### C44 -/

/-- C44, exactly: `write_all` to the pair succeeds if and only if what was accepted is exactly the buffer, no write
claims more than it was given, and the last thing done was not a failed attempt to restore the handler. -/
theorem C44_boundary {fd buf o h} (hr : Runs (Socket.writeAll fd buf) o h) (ho : o ≠ .killed) :
    o = .ok true ↔ delivered fd h = buf ∧ (∀ e ∈ h, ¬ Overcount e) ∧
      ∀ e, h.getLast? = some e → ¬ SigSetFails e := by
  have k := socketWriteAll_runs hr
  have key : (o = .ok true → ∀ e ∈ h, ¬ Overcount e) ∧
      (o = .ok false → delivered fd h = buf → ∃ h' a, h = h' ++ [(⟨.sigSet a, false⟩ : Ev)]) := by
    unfold Socket.writeAll at hr
    refine wp_iff_runs.1 (wp_writeAll (P := fun buf o h => (o = .ok true → ∀ e ∈ h, ¬ Overcount e) ∧
      (o = .ok false → delivered fd h = buf → ∃ h' a, h = h' ++ [(⟨.sigSet a, false⟩ : Ev)])) ?_ ?_ ?_ buf) o h hr
    · simp
    · simp
    · intro buf hne
      rw [wp_iff_runs]
      intro o h hw
      obtain ⟨o', hg, ho⟩ := write_runs hw
      cases hg with
      | k0 =>
        rcases ho with ⟨_, rfl⟩ | ⟨h, _⟩ | ⟨r, h, _⟩ <;> simp_all [roundPost]
      | noGet =>
        rcases ho with ⟨h, _⟩ | ⟨_, rfl⟩ | ⟨r, h, _⟩ <;> simp_all [roundPost, delivered, sent, hne.symm]
      | k1 old =>
        rcases ho with ⟨_, rfl⟩ | ⟨h, _⟩ | ⟨r, h, _⟩ <;> simp_all [roundPost]
      | noSet old =>
        rcases ho with ⟨h, _⟩ | ⟨_, rfl⟩ | ⟨r, h, _⟩ <;> simp_all [roundPost, delivered, sent, hne.symm]
      | k2 old =>
        rcases ho with ⟨_, rfl⟩ | ⟨h, _⟩ | ⟨r, h, _⟩ <;> simp_all [roundPost]
      | k3 old r =>
        rcases ho with ⟨_, rfl⟩ | ⟨h, _⟩ | ⟨r, h, _⟩ <;> simp_all [roundPost]
      | noReset old r =>
        rcases ho with ⟨h, _⟩ | ⟨_, rfl⟩ | ⟨r', h, _⟩
        · simp at h
        · exact ⟨by simp, fun _ _ => ⟨[_, _, _], old, rfl⟩⟩
        · simp at h
      | done old r =>
        rcases ho with ⟨h, _⟩ | ⟨h, _⟩ | ⟨r', h, rfl⟩
        · simp at h
        · simp at h
        · simp only [Out.ok.injEq, Option.some.injEq] at h
          subst h
          rcases r with (_ | n) | _ | _
          · exact ⟨by simp, by simp [delivered, sent, hne.symm]⟩
          · refine ⟨fun hle o h' hp => ⟨fun ho => ?_, fun ho hd => ?_⟩, fun hlt => by simp⟩
            · refine List.forall_mem_append.2 ⟨?_, hp.1 ho⟩
              simp [Overcount]; omega
            · have hd' : buf.take (n + 1) ++ delivered fd h' = buf := by
                rw [delivered_append] at hd
                simpa [delivered, sent] using hd
              obtain ⟨h2, a, rfl⟩ := hp.2 ho (by
                apply List.append_cancel_left (as := buf.take (n + 1))
                rw [hd', List.take_append_drop])
              exact ⟨_ ++ h2, a, (List.append_assoc ..).symm⟩
          · refine fun o h' hp => ⟨fun ho => ?_, fun ho hd => ?_⟩
            · exact List.forall_mem_append.2 ⟨by simp [Overcount], hp.1 ho⟩
            · have hd' : delivered fd h' = buf := by
                rw [delivered_append] at hd
                simpa [delivered, sent] using hd
              obtain ⟨h2, a, rfl⟩ := hp.2 ho hd'
              exact ⟨_ ++ h2, a, (List.append_assoc ..).symm⟩
          · exact ⟨by simp, by simp [delivered, sent, hne.symm]⟩
  constructor
  · intro hok
    refine ⟨(k.yes hok).1, key.1 hok, fun e he => ?_⟩
    have hm : e ∈ h := List.mem_of_getLast? he
    have hf := (k.yes hok).2 e hm
    rcases e with ⟨c, r⟩
    cases c <;> first | exact fun h => h.elim | exact hf
  · rintro ⟨h1, h2, h3⟩
    rcases o with (_ | _) | _ | _
    · obtain ⟨h', a, rfl⟩ := key.2 rfl h1
      exact absurd rfl (h3 ⟨.sigSet a, false⟩ (by simp))
    · rfl
    · obtain ⟨e, he, hov⟩ := k.panic rfl
      exact absurd hov (h2 e he)
    · exact absurd rfl ho

/-! ### C11 -/

namespace Boundary

/-- The file while the socket is being made, phase by phase. -/
def InvFs (S : Session) (f : Fs) (euid grp : Nat) : Step → Prop
  | .bind _ => f.umask = 0o777
  | .own _ _ => f.node = some ⟨euid, grp, 0⟩
  | .permit _ _ m => S.mode = some m ∧
      f.node = some ⟨if S.uid = noId then euid else S.uid, if S.gid = noId then grp else S.gid, 0⟩
  | .wait _ _ => ∃ m, S.mode = some m ∧
      f.node = some ⟨if S.uid = noId then euid else S.uid, if S.gid = noId then grp else S.gid, m⟩
  | _ => True

/-- The phase is none of those. -/
def Calm : Step → Prop
  | .bind _ | .own _ _ | .permit _ _ _ | .wait _ _ => False
  | _ => True

theorem invFs_calm {S : Session} {f euid grp} : ∀ {y}, Calm y → InvFs S f euid grp y := by
  intro y hy
  cases y <;> first | exact hy.elim | trivial

variable {S : Session}

theorem calm_says {can level v} : ∀ l, Calm (.says can level v l)
  | [] => trivial
  | t :: l => by
    unfold Step.says
    split
    · exact calm_says l
    · split <;> trivial

theorem calm_refuse {can msg} : Calm (.refuse can msg) := calm_says _

theorem calm_connect : Calm S.connect := by
  unfold Session.connect
  split
  · trivial
  · exact calm_refuse
  · split
    · exact calm_refuse
    · trivial

theorem calm_tell {t} : Calm (S.tell t) := by
  unfold Session.tell
  split
  · exact calm_connect
  · split
    · trivial
    · exact calm_connect

theorem calm_deliver {again : Bytes → Step} {done failed absurd rest r} (h1 : ∀ t, Calm (again t)) (h2 : Calm done)
    (h3 : Calm failed) (h4 : Calm absurd) : Calm (deliver again done failed absurd rest r) := by
  cases r with
  | intr => exact h1 _
  | fail => exact h3
  | wrote n =>
    simp only [deliver]
    split
    · exact h3
    · split
      · exact h1 _
      · split
        · exact h2
        · exact h4

theorem calm_decide {fd b} : Calm (S.decide fd b) := by
  unfold Session.decide
  split
  · split <;> trivial
  · trivial

theorem calm_after {fd e c} : Calm (S.after fd e c) := by
  unfold Session.after
  split <;> first
    | trivial
    | exact calm_decide
    | exact calm_refuse
    | exact calm_deliver (fun _ => trivial) trivial trivial trivial
    | exact calm_deliver (fun _ => trivial) calm_decide calm_decide trivial
    | exact calm_deliver (fun _ => trivial) trivial calm_refuse trivial

/-- One interaction. -/
theorem invFs_move {f : Fs} {euid grp : Nat} {y : Step} {c : Sys} {k : Resp c → Step} (r : Resp c)
    (hi : InvFs S f euid grp y) (hm : S.move y = .call c k) :
    InvFs S (Fs.step S.path euid grp f ⟨c, r⟩) euid grp (k r) := by
  cases y with
  | mask =>
    simp only [Session.move, Move.call.injEq] at hm
    obtain ⟨rfl, hk⟩ := hm
    cases eq_of_heq hk
    rfl
  | bind old =>
    simp only [Session.move, Move.call.injEq] at hm
    obtain ⟨rfl, hk⟩ := hm
    cases eq_of_heq hk
    cases r with
    | bound fd =>
      dsimp only
      split
      · trivial
      · have : f.umask = 0o777 := hi
        simp [InvFs, Fs.step, this]
    | failed => trivial
    | failLeft => trivial
  | own old fd =>
    simp only [Session.move, Move.call.injEq] at hm
    obtain ⟨rfl, hk⟩ := hm
    cases eq_of_heq hk
    have hn : f.node = some ⟨euid, grp, 0⟩ := hi
    cases r with
    | false => simp [InvFs]
    | true =>
      cases hmode : S.mode with
      | none => simp [InvFs]
      | some m => simp [InvFs, Fs.step, hn, hmode]
  | permit old fd m =>
    simp only [Session.move, Move.call.injEq] at hm
    obtain ⟨rfl, hk⟩ := hm
    cases eq_of_heq hk
    obtain ⟨hmode, hn⟩ : S.mode = some m ∧
      f.node = some ⟨if S.uid = noId then euid else S.uid, if S.gid = noId then grp else S.gid, 0⟩ := hi
    cases r with
    | false => simp [InvFs]
    | true =>
      simp only [if_true]
      split
      · exact ⟨m, hmode, by simp [Fs.step, hn]⟩
      · trivial
  | over v => cases hm
  | act fd e old =>
    apply invFs_calm
    cases e <;> simp only [Session.move, Move.call.injEq, reduceCtorEq] at hm <;>
      (obtain ⟨rfl, hk⟩ := hm; cases eq_of_heq hk; trivial)
  | say level text more v =>
    simp only [Session.move, Move.call.injEq] at hm
    obtain ⟨rfl, hk⟩ := hm
    cases eq_of_heq hk
    exact invFs_calm (calm_deliver (fun _ => trivial) (calm_says _) trivial trivial)
  | userFile =>
    simp only [Session.move, Move.call.injEq] at hm
    obtain ⟨rfl, hk⟩ := hm
    cases eq_of_heq hk
    apply invFs_calm
    dsimp only
    split
    · exact calm_tell
    · trivial
  | ttyOpen tty text =>
    simp only [Session.move, Move.call.injEq] at hm
    obtain ⟨rfl, hk⟩ := hm
    cases eq_of_heq hk
    apply invFs_calm
    dsimp only
    split
    · split
      · exact calm_connect
      · trivial
    · exact calm_tell
  | tty text rest =>
    simp only [Session.move, Move.call.injEq] at hm
    obtain ⟨rfl, hk⟩ := hm
    cases eq_of_heq hk
    exact invFs_calm (calm_deliver (fun _ => trivial) calm_connect calm_tell trivial)
  | tell rest =>
    simp only [Session.move, Move.call.injEq] at hm
    obtain ⟨rfl, hk⟩ := hm
    cases eq_of_heq hk
    exact invFs_calm (calm_deliver (fun _ => trivial) calm_connect calm_connect trivial)
  | vet d =>
    simp only [Session.move, Move.call.injEq] at hm
    obtain ⟨rfl, hk⟩ := hm
    cases eq_of_heq hk
    apply invFs_calm
    dsimp only
    split
    · exact calm_refuse
    · split
      · trivial
      · exact calm_refuse
  | look =>
    simp only [Session.move, Move.call.injEq] at hm
    obtain ⟨rfl, hk⟩ := hm
    cases eq_of_heq hk
    apply invFs_calm
    rcases r with _ | _ | _
    · trivial
    · exact calm_refuse
    · trivial
  | stale =>
    simp only [Session.move, Move.call.injEq] at hm
    obtain ⟨rfl, hk⟩ := hm
    cases eq_of_heq hk
    apply invFs_calm
    cases r
    · exact calm_refuse
    · trivial
  | wait old fd =>
    simp only [Session.move, Move.call.injEq] at hm
    obtain ⟨rfl, hk⟩ := hm
    cases eq_of_heq hk
    apply invFs_calm
    dsimp only
    split
    · trivial
    · split <;> trivial
  | admit old fd =>
    simp only [Session.move, Move.call.injEq] at hm
    obtain ⟨rfl, hk⟩ := hm
    cases eq_of_heq hk
    trivial
  | tidy old c =>
    simp only [Session.move, Move.call.injEq] at hm
    obtain ⟨rfl, hk⟩ := hm
    cases eq_of_heq hk
    apply invFs_calm
    dsimp only
    split <;> trivial
  | remove old c =>
    simp only [Session.move, Move.call.injEq] at hm
    obtain ⟨rfl, hk⟩ := hm
    cases eq_of_heq hk
    trivial
  | unmask old c =>
    simp only [Session.move, Move.call.injEq] at hm
    obtain ⟨rfl, hk⟩ := hm
    cases eq_of_heq hk
    apply invFs_calm
    cases c
    · exact calm_refuse
    · trivial
  | pairFile fd =>
    simp only [Session.move, Move.call.injEq] at hm
    obtain ⟨rfl, hk⟩ := hm
    cases eq_of_heq hk
    apply invFs_calm
    dsimp only
    split <;> trivial
  | guard fd e =>
    simp only [Session.move, Move.call.injEq] at hm
    obtain ⟨rfl, hk⟩ := hm
    cases eq_of_heq hk
    apply invFs_calm
    cases r
    · exact calm_after
    · trivial
  | arm fd e old =>
    simp only [Session.move, Move.call.injEq] at hm
    obtain ⟨rfl, hk⟩ := hm
    cases eq_of_heq hk
    apply invFs_calm
    cases r
    · exact calm_after
    · cases e <;> trivial
  | disarm fd e old c =>
    simp only [Session.move, Move.call.injEq] at hm
    obtain ⟨rfl, hk⟩ := hm
    cases eq_of_heq hk
    exact invFs_calm calm_after
  | hangup fd why =>
    simp only [Session.move, Move.call.injEq] at hm
    obtain ⟨rfl, hk⟩ := hm
    cases eq_of_heq hk
    apply invFs_calm
    cases why
    · trivial
    · exact calm_refuse
  | spare fd =>
    simp only [Session.move, Move.call.injEq] at hm
    obtain ⟨rfl, hk⟩ := hm
    cases eq_of_heq hk
    trivial
  | bye fd =>
    simp only [Session.move, Move.call.injEq] at hm
    obtain ⟨rfl, hk⟩ := hm
    cases eq_of_heq hk
    trivial
  | byebye fd =>
    simp only [Session.move, Move.call.injEq] at hm
    obtain ⟨rfl, hk⟩ := hm
    cases eq_of_heq hk
    trivial

/-- Waiting is done in one phase. -/
theorem wait_of_select {y : Step} {fd : Nat} {k} (hm : S.move y = .call (.select fd) k) : ∃ old, y = .wait old fd := by
  cases y with
  | wait old fd' =>
    simp only [Session.move, Move.call.injEq, Sys.select.injEq] at hm
    exact ⟨old, by rw [hm.1]⟩
  | act fd' e old => cases e <;> simp [Session.move] at hm
  | _ => simp [Session.move] at hm

/-- The file whenever the machine waits. -/
theorem invFs_run {euid grp : Nat} : ∀ {s : Sched} {y : Step} {f : Fs} {pre post : Hist} {fd : Nat} {r},
    InvFs S f euid grp y → (runMachine S.move y s).2.1 = pre ++ (⟨.select fd, r⟩ : Ev) :: post →
    ∃ m, S.mode = some m ∧ (Fs.run S.path euid grp f pre).node =
      some ⟨if S.uid = noId then euid else S.uid, if S.gid = noId then grp else S.gid, m⟩
  | [], y, f, pre, post, fd, r, hi, hh => by
    unfold runMachine at hh
    split at hh <;> simp at hh
  | a :: s, y, f, pre, post, fd, r, hi, hh => by
    unfold runMachine at hh
    split at hh
    · simp at hh
    · next c k hm =>
      dsimp only at hh
      rcases pre with _ | ⟨e, pre⟩
      · simp only [List.nil_append, List.cons.injEq] at hh
        have hc : c = .select fd := by
          have := congrArg Ev.call hh.1
          exact this
        subst hc
        obtain ⟨old, rfl⟩ := wait_of_select hm
        exact hi
      · simp only [List.cons_append, List.cons.injEq] at hh
        obtain ⟨rfl, hh⟩ := hh
        exact invFs_run (f := Fs.step S.path euid grp f ⟨c, a c⟩) (invFs_move (a c) hi hm) hh

end Boundary

/-- C11, exactly: while the plugin waits for a pair the socket exists, and those who can connect to it (other than
the superuser) are: for a session as another user, the processes of that user; for `sudo -g`, the processes that hold
that group, except those of sudo's own effective user.  The ids 4294967295 stand for sudo's effective uid and for
the group that new files get. -/
theorem C11_boundary {rt : Rt} {a : OpenArgs} {st : State} {o} {pre post : Hist} {fd : Nat} {r}
    (hr : Runs (Core.open rt a st) o (pre ++ (⟨.select fd, r⟩ : Ev) :: post)) {env0 : IoEnv}
    (hnew : IoEnv.new rt a = some (.ok env0)) {env : IoEnv} (henv : env = st.env.getD env0) (f : Fs) (grp : Nat) :
    ∃ n, (Fs.run (sessionPath env) rt.euid grp f pre).node = some n ∧ ∀ c : Cred, n.connectable c ↔
      (env.userInfo.uid ≠ env.commandInfo.runasEuid ∧ env.settings.runasGroup = none ∧
        c.uid = if env.commandInfo.runasEuid = noId then rt.euid else env.commandInfo.runasEuid) ∨
      (env.userInfo.uid = env.commandInfo.runasEuid ∧ env.settings.runasGroup ≠ none ∧ c.uid ≠ rt.euid ∧
        (if env.commandInfo.runasEgid = noId then grp else env.commandInfo.runasEgid) ∈ c.groups) := by
  classical
  obtain ⟨s, _, hh⟩ := hr
  have hist : ∀ {S x fin}, Protocol rt S (.open a) st x fin →
      (runMachine S.move x s).2.1 = pre ++ (⟨.select fd, r⟩ : Ev) :: post := by
    intro S x fin hp
    have hx := C63_exact (s := s) hp
    change Core.open rt a st s = _ at hx
    rw [hx] at hh
    rw [← hh]
    rcases runMachine S.move x s with ⟨_ | _ | _, _, _⟩ <;> rfl
  have bare : ∀ {x fin}, Protocol rt (bareSession true) (.open a) st x fin → Boundary.Calm x → False := by
    intro x fin hp hc
    obtain ⟨m, hm, _⟩ := Boundary.invFs_run (f := f) (euid := rt.euid) (grp := grp) (Boundary.invFs_calm hc) (hist hp)
    cases hm
  by_cases hc : env.commandInfo.command = []
  · exact (bare (.openBare hnew henv hc) trivial).elim
  by_cases ht : rt.debug = true ∧ Trips env (optionsOf env)
  · exact (bare (.openTrips hnew henv hc ht.1 ht.2) trivial).elim
  by_cases hx : SessionExempt env
  · exact (bare (.openExempt hnew henv hc ht hx) trivial).elim
  by_cases hb : env.userInfo.uid ≠ env.commandInfo.runasEuid ∧ env.settings.runasGroup ≠ none
  · exact (bare (.openBoth hnew henv hc ht hx hb.1 hb.2) Boundary.calm_refuse).elim
  have hp := Protocol.openAsk hnew henv hc ht hx hb (sessionOf_sessionFor rt env a.hasPrintf st.plugin.isSome)
  obtain ⟨m, hm, hn⟩ := Boundary.invFs_run (f := f) (euid := rt.euid) (grp := grp) (Boundary.invFs_calm (y := .userFile) trivial)
    (hist hp)
  have hpath : (sessionFor rt env a.hasPrintf st.plugin.isSome).path = sessionPath env := rfl
  rw [hpath] at hn
  refine ⟨_, hn, fun c => ?_⟩
  simp only [sessionFor] at hm ⊢
  by_cases hu : env.userInfo.uid = env.commandInfo.runasEuid
  · rw [if_neg (not_not_intro hu)] at hm
    by_cases hg : env.settings.runasGroup = none
    · rw [if_neg (not_not_intro hg)] at hm; cases hm
    · rw [if_pos hg] at hm
      cases hm
      simp only [Node.connectable, hu, hg, if_true, if_false]
      by_cases he : c.uid = rt.euid
      · simp [he]
      · by_cases hgr : (if env.commandInfo.runasEgid = noId then grp else env.commandInfo.runasEgid) ∈ c.groups
        · simp [he, hgr, hg]
        · simp [he, hgr, hg]
  · rw [if_pos hu] at hm
    have hg : env.settings.runasGroup = none := Classical.byContradiction fun h => hb ⟨hu, h⟩
    cases hm
    simp only [Node.connectable, hu, hg, if_true, if_false]
    by_cases he : c.uid = if env.commandInfo.runasEuid = noId then rt.euid else env.commandInfo.runasEuid
    · simp [he, hu]
    · simp [he]

/-! ### C12 -/

/-- C12, exactly: while the plugin waits for a pair, a process with the invoking user's own uid and groups can connect
if and only if the session is `sudo -g` to a group the user holds (and they are not sudo's own effective user), or the
target uid is 4294967295 and the user is sudo's own effective user. -/
theorem C12_boundary {rt : Rt} {a : OpenArgs} {st : State} {o} {pre post : Hist} {fd : Nat} {r}
    (hr : Runs (Core.open rt a st) o (pre ++ (⟨.select fd, r⟩ : Ev) :: post)) {env0 : IoEnv}
    (hnew : IoEnv.new rt a = some (.ok env0)) {env : IoEnv} (henv : env = st.env.getD env0) (f : Fs) (grp : Nat) :
    ∃ n, (Fs.run (sessionPath env) rt.euid grp f pre).node = some n ∧
      (n.connectable ⟨env.userInfo.uid, env.userInfo.gid :: env.userInfo.groups⟩ ↔
        (env.userInfo.uid ≠ noId ∧ env.commandInfo.runasEuid = noId ∧ env.settings.runasGroup = none ∧
          env.userInfo.uid = rt.euid) ∨
        (env.userInfo.uid = env.commandInfo.runasEuid ∧ env.settings.runasGroup ≠ none ∧
          env.userInfo.uid ≠ rt.euid ∧
          (if env.commandInfo.runasEgid = noId then grp else env.commandInfo.runasEgid) ∈
            env.userInfo.gid :: env.userInfo.groups)) := by
  obtain ⟨n, hn, hc⟩ := C11_boundary hr hnew henv f grp
  refine ⟨n, hn, ?_⟩
  rw [hc]
  refine or_congr ?_ Iff.rfl
  dsimp only
  constructor
  · rintro ⟨h1, h2, h3⟩
    by_cases hi : env.commandInfo.runasEuid = noId
    · rw [if_pos hi] at h3
      exact ⟨fun h => h1 (h.trans hi.symm), hi, h2, h3⟩
    · rw [if_neg hi] at h3
      exact absurd h3 h1
  · rintro ⟨h1, h2, h3, h4⟩
    exact ⟨fun h => h1 (h.trans h2), h3, by rw [if_pos h2]; exact h4⟩

/-! ### C36 -/

/-- C36, exactly: reading `network_addrs` panics if and only if its value is UTF-8 and has an element without `/` that
is an address and comes after well-formed elements only. -/
theorem C36_boundary (parseIp : Bytes → Option Bytes) (vec : Option (List Bytes)) :
    getNetAddrs parseIp (.fromRaw vec) = none ↔
      ∃ (v first : Bytes) (rest pre post : List Bytes) (e : Bytes), Value vec (b! "network_addrs") v ∧ Utf8 v ∧
        v = first ++ rest.flatMap (fun p => 32 :: p) ∧ (∀ p ∈ first :: rest, (32 : UInt8) ∉ p) ∧
        first :: rest = pre ++ e :: post ∧ (∀ p ∈ pre, ∃ n, DenotesNet parseIp p n) ∧
        (47 : UInt8) ∉ e ∧ parseIp e ≠ none := by
  unfold getNetAddrs
  constructor
  · intro h
    split at h
    · cases h
    · next v hs =>
      split at h
      · cases h
      · cases h
      · next hp =>
        obtain ⟨hv, hu⟩ := (getStr_iff ..).1 hs
        cases hsp : splitOn 32 v with
        | nil => exact absurd hsp (splitOn_ne_nil _ _)
        | cons first rest =>
          unfold parseNetAddrs at hp
          rw [hsp] at hp
          obtain ⟨pre, e, post, h1, h2, h3, h4⟩ := (C36_panic_iff parseIp _).1 hp
          obtain ⟨k1, k2⟩ := splitOn_eq_cons.1 hsp
          exact ⟨v, first, rest, pre, post, e, hv, hu, k1, k2, h1, h2, h3, h4⟩
  · rintro ⟨v, first, rest, pre, post, e, hv, hu, k1, k2, h1, h2, h3, h4⟩
    have hs := (getStr_iff ..).2 ⟨hv, hu⟩
    have hp : parseNetAddrs parseIp v = .panic := by
      unfold parseNetAddrs
      rw [splitOn_eq_cons.2 ⟨k1, k2⟩]
      exact (C36_panic_iff parseIp _).2 ⟨pre, e, post, h1, h2, h3, h4⟩
    simp [hs, hp]

/-! ### C45 -/

/-- No write that came to an end claims too much. -/
def Sober {α : Type} (o : Out α) (h : Hist) : Prop := (∃ x, o = .ok x) → ∀ e ∈ h, ¬ Overcount e

theorem sober_writeAll {w : Bytes → M WriteRes}
    (hw : ∀ buf, wp (w buf) fun o h => ∀ r, o = .ok r → (∀ n, r = .wrote n → n ≤ buf.length) → ∀ e ∈ h, ¬ Overcount e)
    (buf : Bytes) : wp (writeAll w buf) Sober := by
  refine wp_writeAll (P := fun _ => Sober) (by simp [Sober]) (by simp [Sober]) ?_ buf
  intro buf hne
  refine wp_mono (hw buf) fun o h hk => ?_
  rcases o with ((_ | n) | _ | _) | _ | _
  · exact fun _ => hk _ rfl (fun n hn => by cases hn; exact Nat.zero_le _)
  · exact ⟨fun hle o h' hp ho => List.forall_mem_append.2 ⟨hk _ rfl (fun m hm => by cases hm; exact hle), hp ho⟩,
      fun _ h => by obtain ⟨x, hx⟩ := h; cases hx⟩
  · exact fun o h' hp ho => List.forall_mem_append.2 ⟨hk _ rfl (fun m hm => by cases hm), hp ho⟩
  · exact fun _ => hk _ rfl (fun n hn => by cases hn)
  · exact fun h => by obtain ⟨x, hx⟩ := h; cases hx
  · exact fun h => by obtain ⟨x, hx⟩ := h; cases hx

theorem sober_printf (pf : PrintFacility) (buf : Bytes) : wp (pf.writeAll buf) Sober := by
  refine sober_writeAll (fun buf => ?_) buf
  unfold PrintFacility.write
  refine wp_ite (fun _ => wp_pure (by simp)) (fun _ => wp_ite (fun _ => wp_pure (by simp))
    (fun _ => wp_sys (by simp) fun r => ?_))
  rintro _ ho hle e he
  cases ho
  rw [List.mem_singleton.1 he]
  rcases r with n | _ | _
  · exact Nat.not_lt.2 (hle n rfl)
  · exact id
  · exact id

theorem sober_tty (buf : Bytes) : wp (writeAll (fun buf => M.sys (.ttyWrite buf)) buf) Sober := by
  refine sober_writeAll (fun buf => wp_sys (by simp) fun r => ?_) buf
  rintro _ ho hle e he
  cases ho
  rw [List.mem_singleton.1 he]
  rcases r with n | _ | _
  · exact Nat.not_lt.2 (hle n rfl)
  · exact id
  · exact id

/-- C45, exactly: the local prompt stops the session if and only if the kernel or printf claims to have written more
than it was given (or the process is killed meanwhile). -/
theorem C45_boundary {p : Pair} {spec : TemplateSpec} {o h} (hr : Runs (p.localPairPrompt spec) o h) (ho : o ≠ .killed) :
    o = .ok () ↔ ∀ e ∈ h, ¬ Overcount e := by
  refine ⟨fun hok => ?_, fun hov => (C45_returns_partial hr hov).resolve_right ho⟩
  have key : wp (p.localPairPrompt spec) Sober := by
    unfold Pair.localPairPrompt
    refine wp_sys_bind (by simp [Sober]) fun r => ?_
    have lift : ∀ {α : Type} {c : Sys} {r : Resp c} {o : Out α} {h : Hist}, ¬ Overcount ⟨c, r⟩ → Sober o h →
        Sober o (⟨c, r⟩ :: h) := fun h1 h2 ho => List.forall_mem_cons.2 ⟨h1, h2 ho⟩
    have htty : wp (p.ttyPrompt (spec.expand (r.getD defaultUserPrompt))) Sober := by
      unfold Pair.ttyPrompt
      split
      · exact wp_pure (by simp [Sober])
      · refine wp_sys_bind (by simp [Sober]) fun r => ?_
        refine wp_ite (fun _ => wp_mono (sober_tty _) fun o h hs => lift id hs)
          (fun _ => wp_pure (by simp [Sober, Overcount]))
    refine wp_mono (Q := Sober) (wp_bind (wp_mono htty fun o h hs => ?_)) fun o h hs => lift id hs
    rcases o with b | _ | _
    · cases b with
      | true =>
        simp only [bindPost, if_true]
        refine wp_pure (α := Unit) ?_
        intro _; rw [List.append_nil]; exact hs ⟨true, rfl⟩
      | false =>
        simp only [bindPost, Bool.false_eq_true, if_false]
        refine wp_bind (wp_mono (sober_printf (PrintFacility.stderr p.env.hasPrintf)
          (spec.expand (r.getD defaultUserPrompt))) fun o h' hs' => ?_)
        rcases o with b' | _ | _
        · simp only [bindPost]
          refine wp_pure (α := Unit) ?_
          intro _
          rw [List.append_nil]
          exact List.forall_mem_append.2 ⟨hs ⟨false, rfl⟩, hs' ⟨b', rfl⟩⟩
        · exact fun h => by obtain ⟨x, hx⟩ := h; cases hx
        · exact fun h => by obtain ⟨x, hx⟩ := h; cases hx
    · exact fun h => by obtain ⟨x, hx⟩ := h; cases hx
    · exact fun h => by obtain ⟨x, hx⟩ := h; cases hx
  exact wp_iff_runs.1 key _ h hr ⟨(), hok⟩

/-! ### C41: reporting an error ends exactly when the error has no cause -/

/-- C41, the exact boundary: on a system that prints everything it is given, the report of an error needs a
bounded number of calls exactly when the error has no cause. -/
theorem C41_boundary {pf : PrintFacility} {msg : Bytes} {src : Option Bytes} (hp : pf.hasPrintf = true)
    (ht : (0 : UInt8) ∉ pf.tag) (hmsg : (0 : UInt8) ∉ msg) (hsrc : ∀ m, src = some m → (0 : UInt8) ∉ m) :
    (∃ n, ∀ s : Sched, (∀ a ∈ s, PrintsAll a ∧ Uninterrupted a) → n < s.length →
      (pf.writeError msg src s).1 ≠ .killed) ↔ src = none := by
  constructor
  · rintro ⟨n, hn⟩
    cases src with
    | none => rfl
    | some m =>
      have hs : ∀ a ∈ List.replicate (n + 1) (coop 121), PrintsAll a ∧ Uninterrupted a := fun a ha => by
        rw [List.eq_of_mem_replicate ha]
        exact ⟨fun _ _ => rfl, coop_uninterrupted 121⟩
      exact absurd (C41_counterexample.1 pf msg m _ hp ht hmsg (hsrc m rfl) fun a ha => (hs a ha).1).1
        (hn _ hs (by rw [List.length_replicate]; omega))
  · rintro rfl
    exact ⟨pf.tag.length + msg.length + 2, fun s hs hl => C41_ends_partial (fun a ha => (hs a ha).2) hl⟩

/-! ### Non-vacuity

The side on which each claim fails is shown by its counterexample; here are both sides where the hypotheses are new. -/

/-- C01, C11: a session that is not exempt, has a command, waits for a pair and is approved. -/
example : ((Core.open sampleRt sampleArgs Core.init (List.replicate 60 (coop 121))).2.1.map Ev.call).contains (.select 7) = true ∧
    retOf (Core.open sampleRt sampleArgs Core.init (List.replicate 60 (coop 121))).1 = some 1 ∧
    argsEnv.commandInfo.command ≠ [] ∧ (Pair.ofEnv argsEnv).isExempt false = some false := by decide +kernel

/-- C07: a group name that is UTF-8, and one that is not. -/
example : Value (groupArgs (b! "wheel")).settings (b! "runas_group") (b! "wheel") ∧ Utf8 (b! "wheel") ∧
    retOf (Core.open sampleRt (groupArgs (b! "wheel")) Core.init (List.replicate 40 (coop 121))).1 = some (-1) ∧
    Value (groupArgs [0xff]).settings (b! "runas_group") [0xff] ∧ ¬ Utf8 [0xff] ∧
    retOf (Core.open sampleRt (groupArgs [0xff]) Core.init (List.replicate 40 (coop 121))).1 = some 1 := by
  refine ⟨(fromRaw_getBytes ..).1 (by decide +kernel), utf8_of_ascii (by decide), by decide +kernel,
    (fromRaw_getBytes ..).1 (by decide +kernel), ?_, by decide +kernel⟩
  intro h
  have := (utf8Valid_iff _).2 h
  revert this
  decide

/-- C33: 27 is listed in `27,wheel` (and not enforced), 0 is all that is listed in `0,wheel`. -/
example : ListedGid (b! "27,wheel") 27 ∧ ListedGid (b! "0,wheel") 0 ∧
    (PluginOptions.ofMap (.fromRaw (some [b! "gids_enforced=27,wheel"]))).gidsEnforced = [0] := by
  refine ⟨⟨b! "27", [b! "wheel"], by decide, by decide, b! "27", by simp, (parseUInt_iff ..).1 (by decide)⟩,
    ⟨b! "0", [b! "wheel"], by decide, by decide, b! "0", by simp, (parseUInt_iff ..).1 (by decide)⟩, by decide⟩

/-- C40: both sides. -/
example : ((PrintFacility.stderr true).writeAll (b! "%%ab") percentPrintf).1 = .ok true ∧
    screen ((PrintFacility.stderr true).writeAll (b! "%%ab") percentPrintf).2.1 = some (b! "%abb") := by decide +kernel

end SudoPair
