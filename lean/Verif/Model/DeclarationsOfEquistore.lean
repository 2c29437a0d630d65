import Verif.Model.Declarations

/-!
# The header of equistore and the module written for it

The declarations of `include/equistore.h`, in the form they are given to the script, and the
committed `equistore/_c_api.py`. Both were translated from the text of these files.
-/

namespace Equistore.Decl

/-- The declarations of `include/equistore.h` lines 1-671. -/
def equistoreHeader : List Declaration :=
  [.typedef "eqs_block_t" (.struct "eqs_block_t"),
   .typedef "eqs_tensormap_t" (.struct "eqs_tensormap_t"),
   .typedef "eqs_status_t" (.base ["int32_t"]),
   .typedefStruct "eqs_labels_t" (some "eqs_labels_t")
    [("labels_ptr", .ptr (.base ["void"])),
     ("names", .ptr (.ptr (.base ["char"]))),
     ("values", .ptr (.base ["int32_t"])),
     ("size", .base ["uintptr_t"]),
     ("count", .base ["uintptr_t"])],
   .typedef "eqs_data_origin_t" (.base ["uint64_t"]),
   .typedefStruct "eqs_sample_mapping_t" (some "eqs_sample_mapping_t")
    [("input", .base ["uintptr_t"]),
     ("output", .base ["uintptr_t"])],
   .typedefStruct "eqs_array_t" (some "eqs_array_t")
    [("ptr", .ptr (.base ["void"])),
     ("origin", .ptr (.func (.base ["eqs_status_t"]) [.ptr (.base ["void"]),
       .ptr (.base ["eqs_data_origin_t"])])),
     ("data", .ptr (.func (.base ["eqs_status_t"]) [.ptr (.base ["void"]),
       .ptr (.ptr (.base ["double"]))])),
     ("shape", .ptr (.func (.base ["eqs_status_t"]) [.ptr (.base ["void"]),
       .ptr (.ptr (.base ["uintptr_t"])), .ptr (.base ["uintptr_t"])])),
     ("reshape", .ptr (.func (.base ["eqs_status_t"]) [.ptr (.base ["void"]),
       .ptr (.base ["uintptr_t"]), .base ["uintptr_t"]])),
     ("swap_axes", .ptr (.func (.base ["eqs_status_t"]) [.ptr (.base ["void"]),
       .base ["uintptr_t"], .base ["uintptr_t"]])),
     ("create", .ptr (.func (.base ["eqs_status_t"]) [.ptr (.base ["void"]),
       .ptr (.base ["uintptr_t"]), .base ["uintptr_t"], .ptr (.struct "eqs_array_t")])),
     ("copy", .ptr (.func (.base ["eqs_status_t"]) [.ptr (.base ["void"]),
       .ptr (.struct "eqs_array_t")])),
     ("destroy", .ptr (.func (.base ["void"]) [.ptr (.base ["void"])])),
     ("move_samples_from", .ptr (.func (.base ["eqs_status_t"]) [.ptr (.base ["void"]),
       .ptr (.base ["void"]), .ptr (.struct "eqs_sample_mapping_t"), .base ["uintptr_t"],
         .base ["uintptr_t"], .base ["uintptr_t"]]))],
   .function "eqs_disable_panic_printing" (.base ["void"])
    (some [.base ["void"]]),
   .function "eqs_last_error" (.ptr (.base ["char"]))
    (some [.base ["void"]]),
   .function "eqs_labels_position" (.base ["eqs_status_t"])
    (some [.struct "eqs_labels_t", .ptr (.base ["int32_t"]), .base ["uint64_t"],
      .ptr (.base ["int64_t"])]),
   .function "eqs_register_data_origin" (.base ["eqs_status_t"])
    (some [.ptr (.base ["char"]), .ptr (.base ["eqs_data_origin_t"])]),
   .function "eqs_get_data_origin" (.base ["eqs_status_t"])
    (some [.base ["eqs_data_origin_t"], .ptr (.base ["char"]), .base ["uint64_t"]]),
   .function "eqs_get_rust_array" (.base ["eqs_status_t"])
    (some [.ptr (.struct "eqs_array_t"), .ptr (.ptr (.base ["double"])),
      .ptr (.ptr (.base ["uintptr_t"])), .ptr (.base ["uintptr_t"])]),
   .function "eqs_block" (.ptr (.struct "eqs_block_t"))
    (some [.struct "eqs_array_t", .struct "eqs_labels_t", .ptr (.struct "eqs_labels_t"),
      .base ["uintptr_t"], .struct "eqs_labels_t"]),
   .function "eqs_block_free" (.base ["eqs_status_t"])
    (some [.ptr (.struct "eqs_block_t")]),
   .function "eqs_block_copy" (.ptr (.struct "eqs_block_t"))
    (some [.ptr (.struct "eqs_block_t")]),
   .function "eqs_block_labels" (.base ["eqs_status_t"])
    (some [.ptr (.struct "eqs_block_t"), .ptr (.base ["char"]), .base ["uintptr_t"],
      .ptr (.struct "eqs_labels_t")]),
   .function "eqs_block_data" (.base ["eqs_status_t"])
    (some [.ptr (.struct "eqs_block_t"), .ptr (.base ["char"]), .ptr (.struct "eqs_array_t")]),
   .function "eqs_block_add_gradient" (.base ["eqs_status_t"])
    (some [.ptr (.struct "eqs_block_t"), .ptr (.base ["char"]), .struct "eqs_array_t",
      .struct "eqs_labels_t", .ptr (.struct "eqs_labels_t"), .base ["uintptr_t"]]),
   .function "eqs_block_gradients_list" (.base ["eqs_status_t"])
    (some [.ptr (.struct "eqs_block_t"), .ptr (.ptr (.ptr (.base ["char"]))),
      .ptr (.base ["uint64_t"])]),
   .function "eqs_tensormap" (.ptr (.struct "eqs_tensormap_t"))
    (some [.struct "eqs_labels_t", .ptr (.ptr (.struct "eqs_block_t")), .base ["uint64_t"]]),
   .function "eqs_tensormap_free" (.base ["eqs_status_t"])
    (some [.ptr (.struct "eqs_tensormap_t")]),
   .function "eqs_tensormap_keys" (.base ["eqs_status_t"])
    (some [.ptr (.struct "eqs_tensormap_t"), .ptr (.struct "eqs_labels_t")]),
   .function "eqs_tensormap_block_by_id" (.base ["eqs_status_t"])
    (some [.ptr (.struct "eqs_tensormap_t"), .ptr (.ptr (.struct "eqs_block_t")),
      .base ["uint64_t"]]),
   .function "eqs_tensormap_blocks_matching" (.base ["eqs_status_t"])
    (some [.ptr (.struct "eqs_tensormap_t"), .ptr (.base ["uintptr_t"]),
      .ptr (.base ["uintptr_t"]), .struct "eqs_labels_t"]),
   .function "eqs_tensormap_keys_to_properties" (.base ["eqs_status_t"])
    (some [.ptr (.struct "eqs_tensormap_t"), .struct "eqs_labels_t", .base ["bool"]]),
   .function "eqs_tensormap_components_to_properties" (.base ["eqs_status_t"])
    (some [.ptr (.struct "eqs_tensormap_t"), .ptr (.ptr (.base ["char"])), .base ["uint64_t"]]),
   .function "eqs_tensormap_keys_to_samples" (.base ["eqs_status_t"])
    (some [.ptr (.struct "eqs_tensormap_t"), .struct "eqs_labels_t", .base ["bool"]]),
   .function "eqs_tensormap_load" (.ptr (.struct "eqs_tensormap_t"))
    (some [.ptr (.base ["char"])]),
   .function "eqs_tensormap_save" (.base ["eqs_status_t"])
    (some [.ptr (.base ["char"]), .ptr (.struct "eqs_tensormap_t")])]

/-- The content of `equistore/_c_api.py` lines 1-235. -/
def equistoreModule : Module :=
  { types := [("eqs_status_t", .ctypes "c_int32"), ("eqs_data_origin_t", .ctypes "c_uint64")]
    enums := []
    structs :=
    [("eqs_block_t",
      []),
     ("eqs_tensormap_t",
      []),
     ("eqs_labels_t",
      [("labels_ptr", .ctypes "c_void_p"),
       ("names", .pointer (.ctypes "c_char_p")),
       ("values", .pointer (.ctypes "c_int32")),
       ("size", .name "c_uintptr_t"),
       ("count", .name "c_uintptr_t")]),
     ("eqs_sample_mapping_t",
      [("input", .name "c_uintptr_t"),
       ("output", .name "c_uintptr_t")]),
     ("eqs_array_t",
      [("ptr", .ctypes "c_void_p"),
       ("origin", .cfunctype (.name "eqs_status_t") [.ctypes "c_void_p",
         .pointer (.name "eqs_data_origin_t")]),
       ("data", .cfunctype (.name "eqs_status_t") [.ctypes "c_void_p",
         .pointer (.pointer (.ctypes "c_double"))]),
       ("shape", .cfunctype (.name "eqs_status_t") [.ctypes "c_void_p",
         .pointer (.pointer (.name "c_uintptr_t")), .pointer (.name "c_uintptr_t")]),
       ("reshape", .cfunctype (.name "eqs_status_t") [.ctypes "c_void_p",
         .pointer (.name "c_uintptr_t"), .name "c_uintptr_t"]),
       ("swap_axes", .cfunctype (.name "eqs_status_t") [.ctypes "c_void_p", .name "c_uintptr_t",
         .name "c_uintptr_t"]),
       ("create", .cfunctype (.name "eqs_status_t") [.ctypes "c_void_p",
         .pointer (.name "c_uintptr_t"), .name "c_uintptr_t", .pointer (.name "eqs_array_t")]),
       ("copy", .cfunctype (.name "eqs_status_t") [.ctypes "c_void_p",
         .pointer (.name "eqs_array_t")]),
       ("destroy", .cfunctype (.none) [.ctypes "c_void_p"]),
       ("move_samples_from", .cfunctype (.name "eqs_status_t") [.ctypes "c_void_p",
         .ctypes "c_void_p", .pointer (.name "eqs_sample_mapping_t"), .name "c_uintptr_t",
           .name "c_uintptr_t", .name "c_uintptr_t"])])]
    functions :=
    [("eqs_disable_panic_printing",
      [],
      .expr (.none)),
     ("eqs_last_error",
      [],
      .expr (.ctypes "c_char_p")),
     ("eqs_labels_position",
      [.name "eqs_labels_t", .pointer (.ctypes "c_int32"), .ctypes "c_uint64",
        .pointer (.ctypes "c_int64")],
      .checkStatus),
     ("eqs_register_data_origin",
      [.ctypes "c_char_p", .pointer (.name "eqs_data_origin_t")],
      .checkStatus),
     ("eqs_get_data_origin",
      [.name "eqs_data_origin_t", .ctypes "c_char_p", .ctypes "c_uint64"],
      .checkStatus),
     ("eqs_get_rust_array",
      [.pointer (.name "eqs_array_t"), .pointer (.pointer (.ctypes "c_double")),
        .pointer (.pointer (.name "c_uintptr_t")), .pointer (.name "c_uintptr_t")],
      .checkStatus),
     ("eqs_block",
      [.name "eqs_array_t", .name "eqs_labels_t", .pointer (.name "eqs_labels_t"),
        .name "c_uintptr_t", .name "eqs_labels_t"],
      .expr (.pointer (.name "eqs_block_t"))),
     ("eqs_block_free",
      [.pointer (.name "eqs_block_t")],
      .checkStatus),
     ("eqs_block_copy",
      [.pointer (.name "eqs_block_t")],
      .expr (.pointer (.name "eqs_block_t"))),
     ("eqs_block_labels",
      [.pointer (.name "eqs_block_t"), .ctypes "c_char_p", .name "c_uintptr_t",
        .pointer (.name "eqs_labels_t")],
      .checkStatus),
     ("eqs_block_data",
      [.pointer (.name "eqs_block_t"), .ctypes "c_char_p", .pointer (.name "eqs_array_t")],
      .checkStatus),
     ("eqs_block_add_gradient",
      [.pointer (.name "eqs_block_t"), .ctypes "c_char_p", .name "eqs_array_t",
        .name "eqs_labels_t", .pointer (.name "eqs_labels_t"), .name "c_uintptr_t"],
      .checkStatus),
     ("eqs_block_gradients_list",
      [.pointer (.name "eqs_block_t"), .pointer (.pointer (.ctypes "c_char_p")),
        .pointer (.ctypes "c_uint64")],
      .checkStatus),
     ("eqs_tensormap",
      [.name "eqs_labels_t", .pointer (.pointer (.name "eqs_block_t")), .ctypes "c_uint64"],
      .expr (.pointer (.name "eqs_tensormap_t"))),
     ("eqs_tensormap_free",
      [.pointer (.name "eqs_tensormap_t")],
      .checkStatus),
     ("eqs_tensormap_keys",
      [.pointer (.name "eqs_tensormap_t"), .pointer (.name "eqs_labels_t")],
      .checkStatus),
     ("eqs_tensormap_block_by_id",
      [.pointer (.name "eqs_tensormap_t"), .pointer (.pointer (.name "eqs_block_t")),
        .ctypes "c_uint64"],
      .checkStatus),
     ("eqs_tensormap_blocks_matching",
      [.pointer (.name "eqs_tensormap_t"), .pointer (.name "c_uintptr_t"),
        .pointer (.name "c_uintptr_t"), .name "eqs_labels_t"],
      .checkStatus),
     ("eqs_tensormap_keys_to_properties",
      [.pointer (.name "eqs_tensormap_t"), .name "eqs_labels_t", .ctypes "c_bool"],
      .checkStatus),
     ("eqs_tensormap_components_to_properties",
      [.pointer (.name "eqs_tensormap_t"), .pointer (.ctypes "c_char_p"), .ctypes "c_uint64"],
      .checkStatus),
     ("eqs_tensormap_keys_to_samples",
      [.pointer (.name "eqs_tensormap_t"), .name "eqs_labels_t", .ctypes "c_bool"],
      .checkStatus),
     ("eqs_tensormap_load",
      [.ctypes "c_char_p"],
      .expr (.pointer (.name "eqs_tensormap_t"))),
     ("eqs_tensormap_save",
      [.ctypes "c_char_p", .pointer (.name "eqs_tensormap_t")],
      .checkStatus)] }

end Equistore.Decl
