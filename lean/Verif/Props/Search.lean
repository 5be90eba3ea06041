import Verif.Props.World
import Verif.Props.Extras
import Verif.Spec.Search
/-
C69: who can reach the approval socket through its directory.
-/
namespace SudoPair
open Spec

variable {S : Site}

/-- As long as the superuser and the owner leave the directory alone, it stays as it is. -/
theorem dir_same {euid : Nat} {T : Cred → Prop} (h0 : ∀ c : Cred, c.uid = 0 ∨ c.uid = euid → T c) :
    ∀ {l : List Happening} {w w' : World}, w.dirOwner = euid → Calm T l → S.run w l = some w' →
      w'.dirOwner = w.dirOwner ∧ w'.dirGroup = w.dirGroup ∧ w'.dirMode = w.dirMode
  | [], w, w', _, _, h => by simp [Site.run] at h; simp [h]
  | x :: l, w, w', hw, hc, h => by
    have hc' : Calm T l := fun c a hm => hc c a (List.mem_cons_of_mem _ hm)
    simp only [Site.run] at h
    cases hx : S.happens w x with
    | none => rw [hx] at h; simp at h
    | some w1 =>
      rw [hx] at h
      have h1 : w1.dirOwner = w.dirOwner ∧ w1.dirGroup = w.dirGroup ∧ w1.dirMode = w.dirMode := by
        cases x with
        | inl e => exact own_dir (S := S) (e := e) hx
        | inr y =>
          obtain ⟨c, a⟩ := y
          simp only [Site.happens] at hx
          split at hx
          · rename_i hm
            simp only [Option.some.injEq] at hx
            subst hx
            cases a <;> try exact ⟨rfl, rfl, rfl⟩
            · simp [World.may] at hm
              exact absurd (h0 c (by rw [hw] at hm; exact hm)) (hc c _ (List.mem_cons_self ..) trivial)
            · simp [World.may] at hm
              exact absurd (h0 c (Or.inl hm)) (hc c _ (List.mem_cons_self ..) trivial)
          · simp at hx
      obtain ⟨j1, j2, j3⟩ := dir_same h0 (h1.1.trans hw) hc' h
      exact ⟨j1.trans h1.1, j2.trans h1.2.1, j3.trans h1.2.2⟩

theorem searches_congr {w w' : World} (h : w'.dirOwner = w.dirOwner ∧ w'.dirGroup = w.dirGroup ∧ w'.dirMode = w.dirMode)
    (c : Cred) : w'.searches c = w.searches c := by
  unfold World.searches; rw [h.1, h.2.1, h.2.2]

theorem through_cons {x : Happening} {l : List Happening} {w w' : World} (h : S.through w (x :: l) = true)
    (hx : S.happens w x = some w') : S.through w' l = true := by
  simp only [Site.through, hx, Bool.and_eq_true] at h
  exact h.2

theorem through_connect {c : Cred} {l : List Happening} {w : World} (h : S.through w (.inr (c, .connect) :: l) = true) :
    w.searches c = true := by
  simp only [Site.through, Bool.and_eq_true] at h
  exact h.1

theorem through_append : ∀ {l1 l2 : List Happening} {w w1 : World}, S.through w (l1 ++ l2) = true →
    S.run w l1 = some w1 → S.through w1 l2 = true
  | [], _, w, w1, h, hr => by simp [Site.run] at hr; exact hr ▸ h
  | x :: l1, l2, w, w1, h, hr => by
    simp only [Site.run] at hr
    cases hx : S.happens w x with
    | none => rw [hx] at hr; simp at hr
    | some w' => rw [hx] at hr; exact through_append (through_cons h hx) hr

theorem run_prefix {l1 l2 : List Happening} {w w' : World} (h : S.run w (l1 ++ l2) = some w') :
    ∃ w1, S.run w l1 = some w1 ∧ S.run w1 l2 = some w' := by
  rw [run_append] at h
  cases h1 : S.run w l1 with
  | none => rw [h1] at h; simp at h
  | some w1 => rw [h1] at h; exact ⟨w1, rfl, h⟩

/-- C69: the peer of a connection that the plugin accepts is one of those of C67 who moreover may search the
directory, as it was when the plugin inspected it (`wd`); or else an insider has interfered since then.

The target ids 4294967295 are excluded as in C11. -/
theorem C69_peer {rt : Rt} {a : OpenArgs} {st : State} {o} {h : Hist}
    (hr : Runs (Core.open rt a st) o h) {env0 : IoEnv}
    (hnew : IoEnv.new rt a = some (.ok env0)) {env : IoEnv} (henv : env = st.env.getD env0)
    (hu : env.commandInfo.runasEuid ≠ noId ∨ rt.euid = 0)
    (hg : env.userInfo.uid = env.commandInfo.runasEuid → env.commandInfo.runasEgid ≠ noId)
    {S : Site} (hS : S.path = sessionPath env) (hSe : S.euid = rt.euid)
    (hSd : ∀ d, SamePath d (PluginOptions.ofMap env.pluginOptions).socketDir → S.isDir d = true)
    {l l3 : List Happening} {fd : Nat} {conn : Conn} (hl : owns (l ++ .inl ⟨.accept fd, some conn⟩ :: l3) = h)
    {w w' : World} (hw : S.run w (l ++ .inl ⟨.accept fd, some conn⟩ :: l3) = some w')
    (ht : S.through w (l ++ .inl ⟨.accept fd, some conn⟩ :: l3) = true) :
    ∃ l1 d fst l2 wd, l = l1 ++ .inl ⟨.stat d, some fst⟩ :: l2 ∧
      SamePath d (PluginOptions.ofMap env.pluginOptions).socketDir ∧
      S.run w l1 = some wd ∧ fst.uid = wd.dirOwner ∧ fst.mode &&& 0o777 = wd.dirMode &&& 0o777 ∧
      ((Vouched env conn.peer ∧ .inr (conn.peer, .connect) ∈ l2 ∧ wd.searches conn.peer = true) ∨
        ∃ c a, .inr (c, a) ∈ l2 ∧ a.Meddles ∧ Insider rt env c) := by
  obtain ⟨l1, d, fst, l2, rfl, hsame, hfu, -, hor⟩ := C67_peer hr hnew henv hu hg hS hSe hSd hl hw
  rw [List.append_assoc] at hw ht
  obtain ⟨wd, r1, r2⟩ := run_prefix hw
  have t1 := through_append ht r1
  rw [List.cons_append] at t1
  simp only [List.cons_append, Site.run] at r2
  cases ho : S.happens wd (.inl ⟨.stat d, some fst⟩) with
  | none => rw [ho] at r2; simp at r2
  | some wd' =>
  rw [ho] at r2
  have t2 := through_cons t1 ho
  simp only [Option.bind_some] at r2
  have hgood : wd' = wd ∧ fst.uid = wd.dirOwner ∧ fst.mode &&& 0o777 = wd.dirMode &&& 0o777 := by
    simp only [Site.happens, Site.own, hSd d hsame, true_and] at ho
    split at ho
    · simp at ho
    · rename_i hq
      rw [Decidable.not_not] at hq
      simp only [Option.some.injEq] at ho
      exact ⟨ho.symm, hq⟩
  obtain ⟨rfl, hown, hmod⟩ := hgood
  refine ⟨l1, d, fst, l2, wd', rfl, hsame, r1, hown, hmod, ?_⟩
  refine Classical.or_iff_not_imp_right.2 fun hni => ?_
  rcases hor with ⟨h1, h2⟩ | h2
  · refine ⟨h1, h2, ?_⟩
    obtain ⟨m1, m2, rfl⟩ := List.append_of_mem h2
    rw [List.append_assoc] at t2 r2
    obtain ⟨wx, r3, -⟩ := run_prefix r2
    have t3 := through_connect (through_append t2 r3)
    have hc : Calm (fun c => c.uid = 0 ∨ c.uid = rt.euid) m1 := fun c a hm hme hT =>
      hni ⟨c, a, by simp [hm], hme, hT.elim .inl (.inr ∘ .inl)⟩
    rw [← searches_congr (dir_same (euid := rt.euid) (fun _ h => h) (hown.symm.trans hfu) hc r3)]
    exact t3
  · exact absurd h2 hni

theorem and_777_111 {a b : Nat} (h : a &&& 0o777 = b &&& 0o777) (m : Nat) (hm : 0o777 &&& m = m) : a &&& m = b &&& m := by
  rw [← hm, ← Nat.and_assoc, h, Nat.and_assoc]

/-- C69: in a directory that nobody may search (mode 0644, as the README and the Makefile create it; the plugin
does not mind), nobody but the superuser can answer: a session that is not exempt and is accepted was answered by
the superuser, or an insider has interfered.  The same ids are excluded, and empty commands as in C01. -/
theorem C69_closed {rt : Rt} {a : OpenArgs} {st st' : State} {h : Hist}
    (hr : Runs (Core.open rt a st) (.ok (1, st')) h) {env : IoEnv} (henv : st'.env = some env)
    (hcmd : env.commandInfo.command ≠ []) (hx : ¬ SessionExempt env)
    (hu : env.commandInfo.runasEuid ≠ noId ∨ rt.euid = 0)
    (hg : env.userInfo.uid = env.commandInfo.runasEuid → env.commandInfo.runasEgid ≠ noId)
    {S : Site} (hS : S.path = sessionPath env) (hSe : S.euid = rt.euid)
    (hSd : ∀ d, SamePath d (PluginOptions.ofMap env.pluginOptions).socketDir → S.isDir d = true)
    {l : List Happening} (hl : owns l = h) {w w' : World} (hw : S.run w l = some w') (ht : S.through w l = true)
    (hmode : ∀ d fst, .inl ⟨.stat d, some fst⟩ ∈ l → fst.mode &&& 0o111 = 0) :
    ∃ l1 d fst l2 fd conn l3 reply b l4,
      l = l1 ++ .inl ⟨.stat d, some fst⟩ :: (l2 ++ .inl ⟨.accept fd, some conn⟩ :: (l3 ++ .inl reply :: l4)) ∧
      Read1 b conn.fd reply ∧ (b = (Char.toNat 'y').toUInt8 ∨ b = (Char.toNat 'Y').toUInt8) ∧
      (conn.peer.uid = 0 ∨ ∃ c a, .inr (c, a) ∈ l2 ∧ a.Meddles ∧ Insider rt env c) := by
  obtain ⟨env0, hnew⟩ : ∃ env0, IoEnv.new rt a = some (.ok env0) := by
    generalize ho : Out.ok ((1 : Int), st') = o at hr
    cases coreOpen_runs hr <;> first | (simp at ho; done) | exact ⟨_, ‹_›⟩
  obtain ⟨fd, before, between, after, lis, conn, reply, b, t, pr, rfl, rfl, -, -, -, -, -, -, hb, hy⟩ :=
    C01_approval_partial rt a st st' env h hr henv hcmd hx
  have he : env = st.env.getD env0 := by
    have := open_env hr hnew
    rw [henv] at this
    simpa [effEnv] using this
  obtain ⟨la, lb, rfl, -, h2⟩ := owns_split hl
  obtain ⟨l3, l4, rfl, -, -⟩ := owns_split h2
  obtain ⟨l1, d, fst, l2, wd, rfl, -, -, -, hmod, h3⟩ := C69_peer hr hnew he hu hg hS hSe hSd hl hw ht
  refine ⟨l1, d, fst, l2, lis, conn, l3, reply, b, l4, by simp, hb, hy, h3.imp_left fun ⟨_, _, hs⟩ => ?_⟩
  have h0 : wd.dirMode &&& 0o111 = 0 := by
    rw [← and_777_111 hmod 0o111 rfl]; exact hmode d fst (by simp)
  have hz : ∀ m, 0o111 &&& m = m → wd.dirMode &&& m = 0 := fun m hm => by
    rw [← hm, ← Nat.and_assoc, h0, Nat.zero_and]
  unfold World.searches at hs
  simp [hz 0o100 rfl, hz 0o010 rfl, hz 0o001 rfl] at hs
  exact hs

/-- C69: if everybody may search the directory (mode 0755, as the Debian package sets it) nothing is taken away
from C67. -/
theorem C69_open {w : World} (h : w.dirMode &&& 0o111 = 0o111) (c : Cred) : w.searches c = true := by
  have hz : ∀ m, 0o111 &&& m = m → w.dirMode &&& m = m := fun m hm => by
    conv => lhs; rw [← hm, ← Nat.and_assoc, h, hm]
  unfold World.searches
  simp [hz 0o100 rfl, hz 0o010 rfl, hz 0o001 rfl]

/-- C69: neither can the approval script help: `stat` needs the same permission, and where it fails the script ends
at once, without connecting and without calling itself through sudo. -/
theorem C69_script {arith : Approve.Arith} {su ans args t} (hstat : ∀ p, ans (.statUid p) = none)
    (h : Approval arith su ans args t) :
    ∀ x ∈ t, x = .idU ∨ x = .usage ∨ (∃ p, x = .statUid p) ∨ ∃ c, x = .code c := by
  have hs : ∀ x ∈ Approve.script arith ans su args, x = .idU ∨ x = .usage ∨ (∃ p, x = .statUid p) ∨ ∃ c, x = .code c := by
    have hassign : ∀ v name text k, (∀ i w, ∀ x ∈ k i w, x = Approve.Cmd.idU ∨ x = .usage ∨ (∃ p, x = .statUid p) ∨ ∃ c, x = .code c) →
        ∀ x ∈ Approve.assign arith v name text k, x = .idU ∨ x = .usage ∨ (∃ p, x = .statUid p) ∨ ∃ c, x = .code c := by
      intro v name text k hk x hx
      unfold Approve.assign at hx
      rcases List.mem_append.1 hx with hx | hx
      · obtain ⟨c, -, rfl⟩ := List.mem_map.1 hx
        exact .inr (.inr (.inr ⟨c, rfl⟩))
      · split at hx
        · simp at hx
        · exact hk _ _ x hx
    have hreal : ∀ su k, (∀ text, ∀ x ∈ k text, x = Approve.Cmd.idU ∨ x = .usage ∨ (∃ p, x = .statUid p) ∨ ∃ c, x = .code c) →
        ∀ x ∈ Approve.realUid ans su k, x = .idU ∨ x = .usage ∨ (∃ p, x = .statUid p) ∨ ∃ c, x = .code c := by
      intro su k hk x hx
      unfold Approve.realUid Approve.cmd at hx
      split at hx
      · rcases List.mem_cons.1 hx with rfl | hx
        · exact .inl rfl
        · split at hx
          · simp at hx
          · exact hk _ x hx
      · exact hk _ x hx
    have hcmd : ∀ p k, ∀ x ∈ Approve.cmd ans (.statUid p) k, x = .idU ∨ x = .usage ∨ (∃ p, x = .statUid p) ∨ ∃ c, x = .code c := by
      intro p k x hx
      unfold Approve.cmd at hx
      rw [hstat] at hx
      simp at hx
      exact .inr (.inr (.inl ⟨_, hx⟩))
    unfold Approve.script
    split
    · exact hassign _ _ _ _ fun uid _ => hassign _ _ _ _ fun pid _ => hreal _ _ fun text => hassign _ _ _ _ fun ruid _ => hcmd _ _
    · intro x hx
      simp at hx
      exact .inr (.inl hx)
  cases h with
  | last => exact hs
  | again hm _ => rcases hm with hm | hm <;> have := hs _ hm <;> simp at this

/-! ### Concrete cases -/

/-- As `truly`, with a directory of mode 0644. -/
def readmeDir (c : Cred) : Answer
  | .stat _ => some ⟨0o040644, 0⟩
  | e       => truly c e

def readmeWorld : World := { sampleWorld with dirMode := 0o644 }

/-- The history of a session in that directory, with a connection by `c` once the permissions of the socket are set. -/
def readmeRun (c : Cred) : List Happening :=
  let h := (Core.open sampleRt otherUserArgs Core.init (List.replicate 60 (readmeDir c))).2.1
  (h.take 9).map .inl ++ [.inr (c, .connect)] ++ (h.drop 9).map .inl

/-- A directory of mode 0644 passes the inspection, and the socket's permissions let the target user 1001 connect,
but those of the directory do not; the superuser can, and approves.  In a directory of mode 0755 the target user can. -/
example :
    (sampleSite.run readmeWorld (readmeRun ⟨1001, [1001]⟩)).isSome = true ∧
    sampleSite.through readmeWorld (readmeRun ⟨1001, [1001]⟩) = false ∧
    (sampleSite.run readmeWorld (readmeRun ⟨0, [0]⟩)).isSome = true ∧
    sampleSite.through readmeWorld (readmeRun ⟨0, [0]⟩) = true ∧
    retOf (Core.open sampleRt otherUserArgs Core.init (List.replicate 60 (readmeDir ⟨0, [0]⟩))).1 = some 1 ∧
    sampleSite.through sampleWorld (woven otherUserArgs ⟨1001, [1001]⟩ 9 [(⟨1001, [1001]⟩, .connect)]) = true := by
  decide +kernel

/-- The hypotheses of `C69_closed` are met. -/
example : ∃ env st' h w', Runs (Core.open sampleRt otherUserArgs Core.init) (.ok (1, st')) h ∧
    st'.env = some env ∧ env.commandInfo.command ≠ [] ∧ ¬ SessionExempt env ∧
    env.commandInfo.runasEuid ≠ noId ∧ env.userInfo.uid ≠ env.commandInfo.runasEuid ∧
    sampleSite.path = sessionPath env ∧ sampleSite.euid = sampleRt.euid ∧
    (∀ d, SamePath d (PluginOptions.ofMap env.pluginOptions).socketDir → sampleSite.isDir d = true) ∧
    owns (readmeRun ⟨0, [0]⟩) = h ∧ sampleSite.run readmeWorld (readmeRun ⟨0, [0]⟩) = some w' ∧
    sampleSite.through readmeWorld (readmeRun ⟨0, [0]⟩) = true ∧
    ∀ d fst, .inl ⟨.stat d, some fst⟩ ∈ readmeRun ⟨0, [0]⟩ → fst.mode &&& 0o111 = 0 := by
  have h1 : retOf (Core.open sampleRt otherUserArgs Core.init (List.replicate 60 (readmeDir ⟨0, [0]⟩))).1 = some 1 := by
    decide +kernel
  have hw : (sampleSite.run readmeWorld (readmeRun ⟨0, [0]⟩)).isSome = true := by decide +kernel
  have ht : sampleSite.through readmeWorld (readmeRun ⟨0, [0]⟩) = true := by decide +kernel
  have hl : owns (readmeRun ⟨0, [0]⟩) =
      (Core.open sampleRt otherUserArgs Core.init (List.replicate 60 (readmeDir ⟨0, [0]⟩))).2.1 := by
    have k : ∀ h : Hist, owns (h.map .inl) = h := by intro h; induction h <;> simp_all [owns]
    have k2 : owns [.inr ((⟨0, [0]⟩ : Cred), Deed.connect)] = [] := rfl
    simp only [readmeRun, owns_append, k, k2, List.append_nil, List.take_append_drop]
  have hm : (readmeRun ⟨0, [0]⟩).all (fun x => match x with
      | .inl ⟨.stat _, some fst⟩ => fst.mode &&& 0o111 == 0
      | _ => true) = true := by decide +kernel
  have hm' : ∀ d fst, .inl ⟨.stat d, some fst⟩ ∈ readmeRun ⟨0, [0]⟩ → fst.mode &&& 0o111 = 0 := fun d fst hin => by
    simpa using List.all_eq_true.1 hm _ hin
  obtain ⟨w', hw⟩ := Option.isSome_iff_exists.1 hw
  rcases hc : Core.open sampleRt otherUserArgs Core.init (List.replicate 60 (readmeDir ⟨0, [0]⟩)) with
    ⟨⟨r, st'⟩ | _ | _, h, s⟩ <;> rw [hc] at h1 hl <;> simp only [retOf, Option.some.injEq, reduceCtorEq] at h1
  subst h1
  have h5 : ((IoEnv.new sampleRt otherUserArgs).bind Except.toOption).map
      (fun env => (env.commandInfo.command, (Pair.ofEnv env).isExempt false, (Pair.ofEnv env).socketPath,
        env.commandInfo.runasEuid, env.userInfo.uid)) =
      some (b! "/bin/ls", some false, b! "/var/run/sudo_pair/1000.42.sock", 1001, 1000) := by decide +kernel
  rcases hn : IoEnv.new sampleRt otherUserArgs with _ | (e | env) <;> rw [hn] at h5
  · simp at h5
  · simp [Except.toOption] at h5
  · simp only [Except.toOption, Option.bind_some, Option.map_some, Option.some.injEq, Prod.mk.injEq] at h5
    obtain ⟨h6, h7, h8, h9, h10⟩ := h5
    refine ⟨env, st', h, w', runs_of hc, open_env (runs_of hc) hn, by rw [h6]; simp, fun hx => ?_, by rw [h9]; decide,
      by rw [h9, h10]; decide, h8.symm.trans (sessionPath_eq env), rfl, fun _ _ => rfl, hl, hw, ht, hm'⟩
    have := (C04_release (Pair.ofEnv env)).2 hx
    rw [h7] at this; simp at this

end SudoPair
