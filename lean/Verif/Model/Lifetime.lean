import Verif.Model.Domain

/-!
# Destruction and construction of domains

In `Verif.Model.Domain` all domains exist all the time. Here a domain may also be destroyed and another one be
constructed at the same address, as happens with domains on the stack or on the heap. (A domain constructed at an
address that was never used before is one of the domains that are there from the beginning, not used so far.)
-/

namespace Dnmx

/-- A call, or the destruction of the domain at an address followed by the construction of another one there. -/
inductive LifeOp
  | call (o : Op)
  | renew (d : DomId) (s : Settings)

/-- `~domain` (code/dynamix/domain.cpp 916-918: `delete m_impl`, so the registries are destroyed with all types) and
then `domain::domain` (911-914, 181-192) at the same address. The infos, which belong to the user, are not touched:
their `id` and `dom` stay as they are. -/
def renew (W : World) (d : DomId) (s : Settings) : World := W.setDom d (newDom s)

/-- Execute one call; nothing is reported for a destruction and construction. -/
def lifeStep (D : Decls) (W : World) : LifeOp → World
  | .call o => (step D W o).2
  | .renew d s => renew W d s

/-- Execute calls, destructions and constructions one after the other. -/
def runLife (D : Decls) : World → List LifeOp → World
  | W, [] => W
  | W, o :: ops => runLife D (lifeStep D W o) ops

end Dnmx
