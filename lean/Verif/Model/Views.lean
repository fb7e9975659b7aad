import Verif.Model.Container

/-!
# Model: containers built from other containers

`container::settings()` carries the data pointer and the shape only; the view constructors, `relabel`
and `reshape` go through it.
-/

namespace Kwk

/-- `container::settings()`: the options `source = get_data()` and the shape;
`include/kwk/container/container.hpp:75-83`.  Strides, label and allocator are not part of it. -/
structure Settings where
  /-- `source` -/
  source : Ptr
  /-- `size` -/
  size : Shape
  /-- `label`, if any -/
  label : Option String := none
  deriving DecidableEq, Repr

/-- `container::settings()`; `include/kwk/container/container.hpp:75-78`. -/
def Container.settings (c : Container) : Settings := { source := c.base, size := c.shape }

/-- `view(settings)`: no `strides` option, so the builder uses the row-major strides of the shape;
`include/kwk/container/view.hpp:62-66`, `include/kwk/detail/container/builder.hpp:19-39`,
`include/kwk/detail/container/metadata.hpp:17-46`. -/
def viewOfSettings (o : Settings) : Container :=
  { Container.ofShape o.source o.size with label := o.label }

/-- `view(container const&)` from a container of another type;
`include/kwk/container/view.hpp:69-71, 103-104`.  (A view copied from a view of its own type uses the
implicit copy constructor, which keeps everything.) -/
def viewOf (c : Container) : Container := viewOfSettings c.settings

/-- `relabel(c, l)`: `view{merge(settings(label = l), c.settings())}`;
`include/kwk/algorithm/views/relabel.hpp:18-22`. -/
def relabel (c : Container) (l : String) : Container :=
  viewOfSettings { c.settings with label := some l }

/-- `reshape(c, sz)`: `view{merge(settings(size = sz), c.settings())}`, the first `size` wins;
`include/kwk/algorithm/views/reshape.hpp:18-22`.  The number of elements is not checked. -/
def reshape (c : Container) (sz : Shape) : Container :=
  viewOfSettings { c.settings with size := sz }

end Kwk
