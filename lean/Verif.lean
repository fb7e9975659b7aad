import Verif.All
import Verif.Axioms
import Verif.Tests.Algorithms
import Verif.Tests.Containers
import Verif.Tests.Docs
import Verif.Tests.Shapes
import Verif.Tests.Slicers
import Verif.Tests.Utilities
