import Verif.Model.OwnerPython

/-
The functions of pyfsapfs for which the property does not hold.
-/

namespace Verif.Spec.Owner

open Verif.Owner

/-- Those that lose memory or leave a pointer to freed memory. -/
def losingPython : List (String × Fn) :=
  [("pyfsapfs_open_new_container", Python.pyfsapfs_open_new_container),
   ("pyfsapfs_open_new_container_with_file_object", Python.pyfsapfs_open_new_container_with_file_object),
   ("PyInit_pyfsapfs", Python.PyInit_pyfsapfs),
   ("pyfsapfs_container_init", Python.pyfsapfs_container_init),
   ("pyfsapfs_container_free", Python.pyfsapfs_container_free),
   ("pyfsapfs_container_open_file_object", Python.pyfsapfs_container_open_file_object),
   ("pyfsapfs_error_fetch", Python.pyfsapfs_error_fetch),
   ("pyfsapfs_error_fetch_and_raise", Python.pyfsapfs_error_fetch_and_raise),
   ("pyfsapfs_extended_attribute_read_buffer", Python.pyfsapfs_extended_attribute_read_buffer),
   ("pyfsapfs_extended_attribute_read_buffer_at_offset", Python.pyfsapfs_extended_attribute_read_buffer_at_offset),
   ("pyfsapfs_extended_attribute_get_extent_by_index", Python.pyfsapfs_extended_attribute_get_extent_by_index),
   ("pyfsapfs_file_entry_get_device_number", Python.pyfsapfs_file_entry_get_device_number),
   ("pyfsapfs_file_entry_read_buffer", Python.pyfsapfs_file_entry_read_buffer),
   ("pyfsapfs_file_entry_read_buffer_at_offset", Python.pyfsapfs_file_entry_read_buffer_at_offset),
   ("pyfsapfs_file_entry_get_extent_by_index", Python.pyfsapfs_file_entry_get_extent_by_index),
   ("pyfsapfs_file_object_io_handle_clone", Python.pyfsapfs_file_object_io_handle_clone),
   ("pyfsapfs_file_object_read_buffer", Python.pyfsapfs_file_object_read_buffer),
   ("pyfsapfs_file_object_get_offset", Python.pyfsapfs_file_object_get_offset),
   ("pyfsapfs_file_object_io_handle_get_size", Python.pyfsapfs_file_object_io_handle_get_size),
   ("pyfsapfs_error_fetch_python2", Python.pyfsapfs_error_fetch_python2),
   ("pyfsapfs_error_fetch_and_raise_python2", Python.pyfsapfs_error_fetch_and_raise_python2),
   ("pyfsapfs_extended_attribute_read_buffer_python2", Python.pyfsapfs_extended_attribute_read_buffer_python2),
   ("pyfsapfs_extended_attribute_read_buffer_at_offset_python2", Python.pyfsapfs_extended_attribute_read_buffer_at_offset_python2),
   ("pyfsapfs_file_entry_read_buffer_python2", Python.pyfsapfs_file_entry_read_buffer_python2),
   ("pyfsapfs_file_entry_read_buffer_at_offset_python2", Python.pyfsapfs_file_entry_read_buffer_at_offset_python2)]

/-- Those that do not return with the value of success that is modelled. -/
def pythonNotOne : List String :=
  ["pyfsapfs_extended_attribute_init",
   "pyfsapfs_extended_attributes_init",
   "pyfsapfs_file_entries_init",
   "pyfsapfs_file_entry_init",
   "pyfsapfs_volume_init",
   "pyfsapfs_volumes_init"]

end Verif.Spec.Owner
