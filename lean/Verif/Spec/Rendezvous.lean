import Verif.Model.Rendezvous
/-!
# Specification: finding a registry
-/
namespace SilKit.Rendezvous.Spec
open SilKit.Uri SilKit.Rendezvous

/-- The hash has no collisions. -/
def NoCollisions (env : Env) : Prop := ∀ a b, env.hash a = env.hash b → a = b

/-- The addresses of hosts are what they look like: IPv4 addresses have dots and no colons, IPv6 addresses consist of digits and colons. -/
def Readable (env : Env) : Prop :=
  ∀ host names, env.resolve host = some names → ∀ a ∈ names, a ≠ [] ∧ '/' ∉ a ∧ ∀ ad, env.address a = some ad →
    (ad.v4 = true ∧ '.' ∈ a ∧ ':' ∉ a ∨ ad.v4 = false ∧ ':' ∈ a ∧ ∀ c ∈ a, c.isDigit = true ∨ c = ':')

/-- A working directory is absolute. -/
def Absolute (cwd : Str) : Prop := cwd.head? = some '/'

def AbsoluteDirs (h : List Op) : Prop := ∀ uri cwd d c t l, Op.start uri cwd d c t l ∈ h → Absolute cwd

/-- Every registry that listens has a TCP socket. -/
def AllTcp (env : Env) (h : List Op) : Prop := ∀ s ∈ (run env h).2, s.uri ≠ none → s.hasTcp = true

/-- A registry was started with this result, and has not ended. -/
def Running (env : Env) (h : List Op) (s : Started) : Prop := s ∈ (run env h).2 ∧ ∀ o ∈ h, o ≠ .stop s.id ∧ o ≠ .crash s.id

end SilKit.Rendezvous.Spec
