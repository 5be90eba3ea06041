import Verif.Lemmas.Runs
/-
The monad laws for effectful code, and how `catch_unwind` distributes.
-/
namespace SudoPair

variable {α β γ : Type}

theorem M.bind_assoc' (m : M α) (f : α → M β) (g : β → M γ) :
    (m >>= f) >>= g = m >>= fun a => f a >>= g := by
  funext s
  simp only [M.bind_def]
  rcases m s with ⟨a | _ | _, h, s'⟩
  · simp only
    rcases f a s' with ⟨b | _ | _, h', s''⟩ <;> simp
  · rfl
  · rfl

theorem M.bind_pure' (m : M α) : (m >>= Pure.pure) = m := by
  funext s
  rw [M.bind_def]
  rcases m s with ⟨a | _ | _, h, s'⟩
  · show (_, h ++ [], _) = _; rw [List.append_nil]; rfl
  · rfl
  · rfl

theorem M.pure_bind'' (a : α) (f : α → M β) : (Pure.pure a >>= f) = f a := by
  funext s
  rw [M.bind_def]
  show ((f a s).1, [] ++ (f a s).2.1, (f a s).2.2) = f a s
  rw [List.nil_append]

instance : LawfulMonad M := LawfulMonad.mk'
  (id_map := fun m => by show (m >>= fun a => Pure.pure (id a)) = m; exact M.bind_pure' m)
  (pure_bind := M.pure_bind'')
  (bind_assoc := M.bind_assoc')

theorem M.catchUnwind_map (m : M α) (g : α → β) :
    M.catchUnwind (m >>= fun a => Pure.pure (g a)) =
      (M.catchUnwind m >>= fun o => Pure.pure (o.map g)) := by
  funext s
  simp only [M.catchUnwind, M.bind_def]
  rcases m s with ⟨a | _ | _, h, s'⟩
  · rfl
  · show _ = (_, h ++ [], _); rw [List.append_nil]; rfl
  · rfl

theorem M.catchUnwind_pure (a : α) : M.catchUnwind (Pure.pure a) = Pure.pure (some a) := rfl

end SudoPair
