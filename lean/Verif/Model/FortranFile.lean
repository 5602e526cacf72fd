import Verif.Model.Output

/-!
# Reading a file of the Fortran version

`Qsc::read_netcdf(filename, 'F')`: read_netcdf.cpp lines 79-97 and 107-195.
-/

namespace Qsc.FortranFile
open Qsc.Netcdf Qsc.Output

variable {F : Type}

/-- `NetCDFReader::get(std::string, std::string&)` (read_netcdf.cpp 79-97).  `stack` is the memory from the
first byte of `nc_string` on: its first 50 bytes are the array, uninitialised when the function is entered, and
anything beyond them is memory the function does not own.  A text longer than the array is written past its
end.  `std::string(nc_string)` reads up to the first zero byte.  `find` returns `npos` where there is no blank,
which is -1 as an `int`, and `resize(-1)` throws.  Fill values of a variable that was never written are left
out, as in `Output.getVar`. -/
def getText (f : File F) (stack : List Char) (name : String) : Except Err (List Char) :=
  match f.vars.find? fun v => v.name == name with
  | none => .error (.nc "NC_ENOTVAR")
  | some v =>
    match v.data with
    | none => .error (.undefined "fill values are not modelled")
    | some (.chars l) =>
      if 50 < l.length then .error (.undefined "text written past the end of nc_string")
      else
        let bytes := l ++ stack.drop l.length
        let s := bytes.takeWhile fun c => c != '\x00'
        if s.length = bytes.length then .error (.undefined "nc_string has no end")
        else
          let t := s.takeWhile fun c => c != ' '
          if t.length = s.length then .error (.nc "std::length_error") else .ok t
    | some _ => .error (.nc "NC_ECHAR")

/-- `nc.get("v", a)` with the name of the variable and that of the member (read_netcdf.cpp 52-77, 130-193). -/
def getAs (f : File F) (m : Mem F) (q : String × String) : Except Err (Mem F) :=
  match getVar f q.1 (m q.2) with
  | .error e => .error e
  | .ok d => .ok (set m q.2 d)

/-- The calls of `get` after `allocate`, in order (read_netcdf.cpp 130-193): variable and member. -/
def fortranReads (fl : Flags) : List (String × String) :=
  [("nfp", "nfp"), ("sign_G", "sG"), ("sign_psi", "spsi"), ("eta_bar", "eta_bar"), ("sigma_initial", "sigma0"),
   ("iota", "iota"), ("mean_elongation", "mean_elongation"), ("rms_curvature", "rms_curvature"),
   ("axis_length", "axis_length"), ("abs_G0_over_B0", "abs_G0_over_B0"),
   ("standard_deviation_of_R", "standard_deviation_of_R"),
   ("standard_deviation_of_Z", "standard_deviation_of_Z"), ("axis_helicity", "helicity"), ("B0", "B0")] ++
  (if fl.r2 then
    [("p2", "p2"), ("B2s", "B2s"), ("B2c", "B2c"), ("B20_mean", "B20_mean"), ("B20_residual", "B20_residual"),
     ("d2_volume_d_psi2", "d2_volume_d_psi2"), ("DWell_times_r2", "DWell_times_r2"),
     ("DGeod_times_r2", "DGeod_times_r2"), ("DMerc_times_r2", "DMerc_times_r2"),
     ("r_singularity", "r_singularity_robust")] else []) ++
  [("phi", "phi"), ("Boozer_toroidal_angle", "Boozer_toroidal_angle"), ("R0", "R0"), ("z0", "Z0"),
   ("curvature", "curvature"), ("torsion", "torsion"), ("sigma", "sigma"), ("X1c", "X1c"), ("Y1c", "Y1c"),
   ("Y1s", "Y1s"), ("elongation", "elongation"), ("d_l_d_phi", "d_l_d_phi"),
   ("modBinv_sqrt_half_grad_B_colon_grad_B", "L_grad_B_inverse")] ++
  (if fl.r2 then
    [("X20", "X20"), ("X2s", "X2s"), ("X2c", "X2c"), ("Y20", "Y20"), ("Y2s", "Y2s"), ("Y2c", "Y2c"),
     ("Z20", "Z20"), ("Z2s", "Z2s"), ("Z2c", "Z2c"), ("B20", "B20"),
     ("grad_grad_B_inverse_scale_length_vs_zeta", "L_grad_grad_B_inverse"),
     ("r_singularity_basic_vs_zeta", "r_hat_singularity_robust")] else []) ++
  (if fl.r3 then
    [("X3s1", "X3s1"), ("X3s3", "X3s3"), ("X3c1", "X3c1"), ("X3c3", "X3c3"), ("Y3s1", "Y3s1"), ("Y3s3", "Y3s3"),
     ("Y3c1", "Y3c1"), ("Y3c3", "Y3c3")] else [])

/-- `L_grad_grad_B = 1.0 / L_grad_grad_B_inverse` (read_netcdf.cpp 180); `inv` is the division of one element. -/
def invert (inv : F → F) (m : Mem F) : Except Err (Mem F) :=
  match m "L_grad_grad_B_inverse" with
  | .flts l => .ok (set m "L_grad_grad_B" (.flts (l.map inv)))
  | _ => .error (.undefined "not a vector")

/-- The two settings derived from `order_r_option` (read_netcdf.cpp 118-127). -/
def flagsOf (t : List Char) : Flags :=
  let r3 := t == "r3_flux_constraint".toList
  ⟨!(t == "r1".toList), r3, r3⟩

/-- `Qsc::read_netcdf(filename, 'F')` (read_netcdf.cpp 107-195).  The division of line 180 comes after the last
`get` instead of before the last nine; they touch neither of its two arrays. -/
def readF (zero : F) (inv : F → F) (stack : List Char) (f : File F) (o : Obj F) : Except Err (Obj F) :=
  match getAs f o.mem ("N_phi", "nphi") with
  | .error e => .error e
  | .ok m =>
    match getText f stack "order_r_option" with
    | .error e => .error e
    | .ok t =>
      match allocate zero ⟨flagsOf t, set m "order_r_option" (.chars t)⟩ with
      | .error e => .error e
      | .ok o =>
        match (fortranReads o.fl).foldlM (getAs f) o.mem with
        | .error e => .error e
        | .ok m =>
          if o.fl.r2 then
            match invert inv m with
            | .error e => .error e
            | .ok m => .ok { o with mem := m }
          else .ok { o with mem := m }

/-- The argument `C_or_F` of `Qsc::read_netcdf` (read_netcdf.cpp 107-114). -/
def readNetcdf (zero : F) (inv : F → F) (stack : List Char) (f : File F) (o : Obj F) (which : Char) :
    Except Err (Obj F) :=
  if which != 'C' && which != 'F' then .error (.nc "C_or_F must be C or F")
  else if which == 'F' then readF zero inv stack f o
  else readC zero f o

end Qsc.FortranFile
