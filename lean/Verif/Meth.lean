import Verif.Num

/-!
# Methods of mutable objects

A Python method is modelled as a state transformer that keeps the state it had reached
when an exception was raised: `S → Except Err α × S`.  So "raises and nothing changed" is a
statement that has to be proven and can fail.
-/

namespace Beyonce

/-- A method on an object with state `S` that returns an `α`. -/
def Meth (S α : Type) : Type := S → Except Err α × S

namespace Meth
variable {S α β : Type}

instance : Monad (Meth S) where
  pure a := fun s => (.ok a, s)
  bind m f := fun s => match m s with
    | (.ok a, s') => f a s'
    | (.error e, s') => (.error e, s')

/-- Read the state. -/
def get : Meth S S := fun s => (.ok s, s)
/-- Overwrite the state. -/
def set (s : S) : Meth S Unit := fun _ => (.ok (), s)
/-- Update the state. -/
def modify (f : S → S) : Meth S Unit := fun s => (.ok (), f s)
/-- A computation that may raise but does not touch the state. -/
def lift (e : Except Err α) : Meth S α := fun s => (e, s)
/-- `raise`. -/
def throw (e : Err) : Meth S α := fun s => (.error e, s)

@[simp] theorem pure_apply (a : α) (s : S) : (pure a : Meth S α) s = (.ok a, s) := rfl
theorem bind_apply (m : Meth S α) (f : α → Meth S β) (s : S) :
    (m >>= f) s = match m s with
      | (.ok a, s') => f a s'
      | (.error e, s') => (.error e, s') := rfl
@[simp] theorem get_apply (s : S) : (get : Meth S S) s = (.ok s, s) := rfl
@[simp] theorem set_apply (s t : S) : (set t : Meth S Unit) s = (.ok (), t) := rfl
@[simp] theorem modify_apply (f : S → S) (s : S) : (modify f : Meth S Unit) s = (.ok (), f s) := rfl
@[simp] theorem lift_apply (e : Except Err α) (s : S) : (lift e : Meth S α) s = (e, s) := rfl
@[simp] theorem throw_apply (e : Err) (s : S) : (throw e : Meth S α) s = (.error e, s) := rfl
@[simp] theorem get_bind (f : S → Meth S β) (s : S) : (get >>= f) s = f s s := rfl
@[simp] theorem modify_bind (g : S → S) (f : Unit → Meth S β) (s : S) :
    (modify g >>= f) s = f () (g s) := rfl
@[simp] theorem lift_ok_bind (a : α) (f : α → Meth S β) (s : S) :
    ((lift (.ok a) : Meth S α) >>= f) s = f a s := rfl
@[simp] theorem lift_error_bind (e : Err) (f : α → Meth S β) (s : S) :
    ((lift (.error e) : Meth S α) >>= f) s = (.error e, s) := rfl

/-- Call a method and swallow an exception it raises: the state that is left. -/
def exec (m : Meth S α) (s : S) : S := (m s).2

end Meth
end Beyonce
