import Verif.Model.LibGraph
import Verif.Model.CsvCrate
import Verif.Model.Cli
import Verif.Model.Gzip
import Verif.Model.Chrono
import Verif.Model.RustFloat

/-!
# The project's integration tests, run on the model

`/repo/tests/*.rs` run the library on the files in `/repo/tests/input` and compare with the files in `/repo/tests/reference`. Here the same runs are done by the model, with its transcriptions of the csv
crate and of chrono, and compared with the same reference files.  These are tests of the model, not proofs of properties: they give evidence that the model is one of this program.
This file is generated from `/repo/tests` by `tools/gentests.py`.
-/
namespace Chopper.Tests
open Chopper Chopper.Chrono

/-- `/repo/tests/input/time_city.csv` -/
def timeCity : String :=
    "Date,DateTime,Time,Int,Short,Double,Float,Byte,Char,String\r\n" ++
    "20160101,2016/01/01-00:00:00,0:00,1,1,10,10,1,1,New York\r\n" ++
    "20160101,2016/01/01-01:00:00,1:00,2,2,20,20,2,2,Tokyo\r\n" ++
    "20170101,2017/01/01-02:00:00,2:00,3,3,10,10,3,3,London\r\n" ++
    "20170101,2017/01/01-10:00:00,10:00,4,4,20,20,4,A,New York\r\n" ++
    "20180101,2018/01/01-11:00:00,11:00,5,5,10,10,5,B,Tokyo\r\n" ++
    "20180101,2018/01/01-12:00:00,12:00,6,6,20,20,6,C,London\r\n" ++
    "20190101,2019/01/01-13:00:00,13:00,7,7,10.5,10.5,7,a,New York\r\n" ++
    "20190101,2019/01/01-21:00:00,21:00,8,8,20.5,20.5,8,b,Tokyo\r\n" ++
    "20191201,2019/12/01-22:00:00,22:00,9,9,-10,-10,9,c,London\r\n" ++
    "20191201,2019/12/01-23:00:00,23:00,10,10,-20,-20,10,@,New York"

/-- `/repo/tests/input/multi_file/1.csv` -/
def multi1 : String :=
    "Date,DateTime,Time,Int,Short,Double,Float,Byte,Char,String\n" ++
    "20160101,2016/01/01-00:00:00,0:00,1,1,10,10,1,1,New York\n" ++
    "20160101,2016/01/01-01:00:00,1:00,2,2,20,20,2,2,Tokyo\n" ++
    "20170101,2017/01/01-02:00:00,2:00,3,3,10,10,3,3,London\n"

/-- `/repo/tests/input/multi_file/2.csv` -/
def multi2 : String :=
    "Date,DateTime,Time,Int,Short,Double,Float,Byte,Char,String\n" ++
    "20170101,2017/01/01-10:00:00,10:00,4,4,20,20,4,A,New York\n" ++
    "20180101,2018/01/01-11:00:00,11:00,5,5,10,10,5,B,Tokyo\n" ++
    "20180101,2018/01/01-12:00:00,12:00,6,6,20,20,6,C,London\n"

/-- `/repo/tests/input/multi_file/3.csv` -/
def multi3 : String :=
    "Date,DateTime,Time,Int,Short,Double,Float,Byte,Char,String\n" ++
    "20190101,2019/01/01-13:00:00,13:00,7,7,10.5,10.5,7,a,New York\n" ++
    "20190101,2019/01/01-21:00:00,21:00,8,8,20.5,20.5,8,b,Tokyo\n" ++
    "20191201,2019/12/01-22:00:00,22:00,9,9,-10,-10,9,c,London\n" ++
    "20191201,2019/12/01-23:00:00,23:00,10,10,-20,-20,10,@,New York\n"

/-- `/repo/tests/input/multi_file/inner/inner.csv` -/
def multiInner : String :=
    "Date,DateTime,Time,Int,Short,Double,Float,Byte,Char,String\n" ++
    "20200101,2020/01/01-13:00:00,13:00,7,7,10.5,10.5,7,a,New York\n"

/-- `/repo/tests/input/time_city.csv.gz` -/
def timeCityGz : List Byte :=
  [31, 139, 8, 8, 183, 145, 68, 93, 0, 3, 116, 105, 109, 101, 95, 99, 105, 116, 121, 46, 99, 115, 118, 0, 117, 144, 221, 74, 195, 64, 16, 133, 239, 5, 223, 193, 7, 56, 213, 157, 109, 243, 179, 94, 105, 27, 4, 65, 188, 105, 111, 188, 76, 53, 216, 210, 154, 133, 176, 34, 125, 123, 103, 103, 51, 33, 33, 202, 217, 204, 158, 139, 124, 204, 199, 86, 117, 104, 80, 241, 216, 29, 191, 26, 200, 120, 110, 3, 182, 7, 223, 5, 84, 254, 123, 127, 110, 240, 116, 246, 117, 192, 250, 194, 127, 110, 14, 117, 135, 109, 232, 142, 237, 231, 245, 149, 53, 148, 27, 50, 132, 88, 238, 12, 241, 89, 24, 115, 47, 7, 50, 40, 198, 200, 225, 188, 54, 63, 55, 111, 190, 59, 253, 67, 82, 79, 198, 27, 54, 198, 200, 225, 236, 252, 233, 226, 5, 43, 20, 43, 20, 179, 61, 22, 111, 44, 57, 105, 97, 108, 47, 190, 253, 240, 237, 223, 28, 169, 168, 20, 172, 56, 105, 223, 10, 143, 83, 211, 82, 209, 82, 209, 193, 84, 84, 51, 78, 218, 153, 97, 61, 82, 157, 115, 170, 42, 5, 57, 39, 173, 204, 177, 25, 187, 58, 5, 157, 130, 75, 5, 99, 65, 193, 33, 115, 155, 165, 81, 160, 158, 250, 206, 112, 171, 190, 82, 80, 114, 108, 36, 101, 148, 216, 143, 156, 29, 89, 101, 201, 10, 59, 60, 175, 56, 59, 14, 63, 157, 124, 14, 239, 19, 235, 25, 170, 214, 82, 250, 39, 90, 216, 244, 113, 125, 24, 180, 127, 1, 58, 220, 212, 207, 133, 2, 0, 0]

/-- `/repo/tests/reference/test_timestamp_1.csv` -/
def refTimestamp1 : String :=
    "timestampNanos,Date,DateTime,Time,Int,Short,Double,Float,Byte,Char,String\n" ++
    "1451624400000000000,20160101,2016/01/01-00:00:00,0:00,1,1,10,10,1,1,New York\n" ++
    "1451628000000000000,20160101,2016/01/01-01:00:00,1:00,2,2,20,20,2,2,Tokyo\n" ++
    "1483254000000000000,20170101,2017/01/01-02:00:00,2:00,3,3,10,10,3,3,London\n" ++
    "1483282800000000000,20170101,2017/01/01-10:00:00,10:00,4,4,20,20,4,A,New York\n" ++
    "1514822400000000000,20180101,2018/01/01-11:00:00,11:00,5,5,10,10,5,B,Tokyo\n" ++
    "1514826000000000000,20180101,2018/01/01-12:00:00,12:00,6,6,20,20,6,C,London\n" ++
    "1546365600000000000,20190101,2019/01/01-13:00:00,13:00,7,7,10.5,10.5,7,a,New York\n" ++
    "1546394400000000000,20190101,2019/01/01-21:00:00,21:00,8,8,20.5,20.5,8,b,Tokyo\n" ++
    "1575255600000000000,20191201,2019/12/01-22:00:00,22:00,9,9,-10,-10,9,c,London\n" ++
    "1575259200000000000,20191201,2019/12/01-23:00:00,23:00,10,10,-20,-20,10,@,New York\n"

/-- `/repo/tests/reference/test_timestamp_2.csv` -/
def refTimestamp2 : String :=
    "timestampNanos,Date,DateTime,Time,Int,Short,Double,Float,Byte,Char,String\n" ++
    "1451624400000000000,20160101,2016/01/01-00:00:00,0:00,1,1,10,10,1,1,New York\n" ++
    "1451628000000000000,20160101,2016/01/01-01:00:00,1:00,2,2,20,20,2,2,Tokyo\n" ++
    "1483254000000000000,20170101,2017/01/01-02:00:00,2:00,3,3,10,10,3,3,London\n" ++
    "1483282800000000000,20170101,2017/01/01-10:00:00,10:00,4,4,20,20,4,A,New York\n" ++
    "1514822400000000000,20180101,2018/01/01-11:00:00,11:00,5,5,10,10,5,B,Tokyo\n" ++
    "1514826000000000000,20180101,2018/01/01-12:00:00,12:00,6,6,20,20,6,C,London\n" ++
    "1546365600000000000,20190101,2019/01/01-13:00:00,13:00,7,7,10.5,10.5,7,a,New York\n" ++
    "1546394400000000000,20190101,2019/01/01-21:00:00,21:00,8,8,20.5,20.5,8,b,Tokyo\n" ++
    "1575255600000000000,20191201,2019/12/01-22:00:00,22:00,9,9,-10,-10,9,c,London\n" ++
    "1575259200000000000,20191201,2019/12/01-23:00:00,23:00,10,10,-20,-20,10,@,New York\n"

/-- `/repo/tests/reference/test_merge.csv` -/
def refMerge : String :=
    "timestampNanos,Date,DateTime,Time,Int,Short,Double,Float,Byte,Char,String\n" ++
    "1451624400000000000,20160101,2016/01/01-00:00:00,0:00,1,1,10,10,1,1,New York\n" ++
    "1451624400000000000,20160101,2016/01/01-00:00:00,0:00,1,1,10,10,1,1,New York\n" ++
    "1451628000000000000,20160101,2016/01/01-01:00:00,1:00,2,2,20,20,2,2,Tokyo\n" ++
    "1451628000000000000,20160101,2016/01/01-01:00:00,1:00,2,2,20,20,2,2,Tokyo\n" ++
    "1483254000000000000,20170101,2017/01/01-02:00:00,2:00,3,3,10,10,3,3,London\n" ++
    "1483254000000000000,20170101,2017/01/01-02:00:00,2:00,3,3,10,10,3,3,London\n" ++
    "1483282800000000000,20170101,2017/01/01-10:00:00,10:00,4,4,20,20,4,A,New York\n" ++
    "1483282800000000000,20170101,2017/01/01-10:00:00,10:00,4,4,20,20,4,A,New York\n" ++
    "1514822400000000000,20180101,2018/01/01-11:00:00,11:00,5,5,10,10,5,B,Tokyo\n" ++
    "1514822400000000000,20180101,2018/01/01-11:00:00,11:00,5,5,10,10,5,B,Tokyo\n" ++
    "1514826000000000000,20180101,2018/01/01-12:00:00,12:00,6,6,20,20,6,C,London\n" ++
    "1514826000000000000,20180101,2018/01/01-12:00:00,12:00,6,6,20,20,6,C,London\n" ++
    "1546365600000000000,20190101,2019/01/01-13:00:00,13:00,7,7,10.5,10.5,7,a,New York\n" ++
    "1546365600000000000,20190101,2019/01/01-13:00:00,13:00,7,7,10.5,10.5,7,a,New York\n" ++
    "1546394400000000000,20190101,2019/01/01-21:00:00,21:00,8,8,20.5,20.5,8,b,Tokyo\n" ++
    "1546394400000000000,20190101,2019/01/01-21:00:00,21:00,8,8,20.5,20.5,8,b,Tokyo\n" ++
    "1575255600000000000,20191201,2019/12/01-22:00:00,22:00,9,9,-10,-10,9,c,London\n" ++
    "1575255600000000000,20191201,2019/12/01-22:00:00,22:00,9,9,-10,-10,9,c,London\n" ++
    "1575259200000000000,20191201,2019/12/01-23:00:00,23:00,10,10,-20,-20,10,@,New York\n" ++
    "1575259200000000000,20191201,2019/12/01-23:00:00,23:00,10,10,-20,-20,10,@,New York\n"

/-- `/repo/tests/reference/test_filters.csv` -/
def refFilters : String :=
    "timestampNanos,Date,DateTime,Time,Int,Short,Double,Float,Byte,String\n" ++
    "1546365600000000000,20190101,2019/01/01-13:00:00,13:00,7,7,10.5,10.5,7,New York\n"

/-- `/repo/tests/reference/test_multi_file.csv` -/
def refMultiFile : String :=
    "timestampNanos,Date,DateTime,Time,Int,Short,Double,Float,Byte,Char,String\n" ++
    "1451624400000000000,20160101,2016/01/01-00:00:00,0:00,1,1,10,10,1,1,New York\n" ++
    "1451628000000000000,20160101,2016/01/01-01:00:00,1:00,2,2,20,20,2,2,Tokyo\n" ++
    "1483254000000000000,20170101,2017/01/01-02:00:00,2:00,3,3,10,10,3,3,London\n" ++
    "1483282800000000000,20170101,2017/01/01-10:00:00,10:00,4,4,20,20,4,A,New York\n" ++
    "1514822400000000000,20180101,2018/01/01-11:00:00,11:00,5,5,10,10,5,B,Tokyo\n" ++
    "1514826000000000000,20180101,2018/01/01-12:00:00,12:00,6,6,20,20,6,C,London\n" ++
    "1546365600000000000,20190101,2019/01/01-13:00:00,13:00,7,7,10.5,10.5,7,a,New York\n" ++
    "1546394400000000000,20190101,2019/01/01-21:00:00,21:00,8,8,20.5,20.5,8,b,Tokyo\n" ++
    "1575255600000000000,20191201,2019/12/01-22:00:00,22:00,9,9,-10,-10,9,c,London\n" ++
    "1575259200000000000,20191201,2019/12/01-23:00:00,23:00,10,10,-20,-20,10,@,New York\n"

/-- `/repo/tests/reference/test_multi_row_output.csv` -/
def refMultiRow : String :=
    "timestampNanos,Date,DateTime,Time,Int,Short,Double,Float,Byte,Char,String\n" ++
    "1451624400000000000,20160101,2016/01/01-00:00:00,0:00,1,1,10,10,1,1,New York\n" ++
    "1451624400000000000,20160101,2016/01/01-00:00:00,0:00,1,1,10,10,1,1,New York\n" ++
    "1451624400000000000,20160101,2016/01/01-00:00:00,0:00,1,1,10,10,1,1,New York\n" ++
    "1451628000000000000,20160101,2016/01/01-01:00:00,1:00,2,2,20,20,2,2,Tokyo\n" ++
    "1451628000000000000,20160101,2016/01/01-01:00:00,1:00,2,2,20,20,2,2,Tokyo\n" ++
    "1451628000000000000,20160101,2016/01/01-01:00:00,1:00,2,2,20,20,2,2,Tokyo\n" ++
    "1483254000000000000,20170101,2017/01/01-02:00:00,2:00,3,3,10,10,3,3,London\n" ++
    "1483254000000000000,20170101,2017/01/01-02:00:00,2:00,3,3,10,10,3,3,London\n" ++
    "1483254000000000000,20170101,2017/01/01-02:00:00,2:00,3,3,10,10,3,3,London\n" ++
    "1483282800000000000,20170101,2017/01/01-10:00:00,10:00,4,4,20,20,4,A,New York\n" ++
    "1483282800000000000,20170101,2017/01/01-10:00:00,10:00,4,4,20,20,4,A,New York\n" ++
    "1483282800000000000,20170101,2017/01/01-10:00:00,10:00,4,4,20,20,4,A,New York\n" ++
    "1514822400000000000,20180101,2018/01/01-11:00:00,11:00,5,5,10,10,5,B,Tokyo\n" ++
    "1514822400000000000,20180101,2018/01/01-11:00:00,11:00,5,5,10,10,5,B,Tokyo\n" ++
    "1514822400000000000,20180101,2018/01/01-11:00:00,11:00,5,5,10,10,5,B,Tokyo\n" ++
    "1514826000000000000,20180101,2018/01/01-12:00:00,12:00,6,6,20,20,6,C,London\n" ++
    "1514826000000000000,20180101,2018/01/01-12:00:00,12:00,6,6,20,20,6,C,London\n" ++
    "1514826000000000000,20180101,2018/01/01-12:00:00,12:00,6,6,20,20,6,C,London\n" ++
    "1546365600000000000,20190101,2019/01/01-13:00:00,13:00,7,7,10.5,10.5,7,a,New York\n" ++
    "1546365600000000000,20190101,2019/01/01-13:00:00,13:00,7,7,10.5,10.5,7,a,New York\n" ++
    "1546365600000000000,20190101,2019/01/01-13:00:00,13:00,7,7,10.5,10.5,7,a,New York\n" ++
    "1546394400000000000,20190101,2019/01/01-21:00:00,21:00,8,8,20.5,20.5,8,b,Tokyo\n" ++
    "1546394400000000000,20190101,2019/01/01-21:00:00,21:00,8,8,20.5,20.5,8,b,Tokyo\n" ++
    "1546394400000000000,20190101,2019/01/01-21:00:00,21:00,8,8,20.5,20.5,8,b,Tokyo\n" ++
    "1575255600000000000,20191201,2019/12/01-22:00:00,22:00,9,9,-10,-10,9,c,London\n" ++
    "1575255600000000000,20191201,2019/12/01-22:00:00,22:00,9,9,-10,-10,9,c,London\n" ++
    "1575255600000000000,20191201,2019/12/01-22:00:00,22:00,9,9,-10,-10,9,c,London\n" ++
    "1575259200000000000,20191201,2019/12/01-23:00:00,23:00,10,10,-20,-20,10,@,New York\n" ++
    "1575259200000000000,20191201,2019/12/01-23:00:00,23:00,10,10,-20,-20,10,@,New York\n" ++
    "1575259200000000000,20191201,2019/12/01-23:00:00,23:00,10,10,-20,-20,10,@,New York\n"

/-- `/repo/tests/reference/test_decompress.csv` -/
def refDecompress : String :=
    "timestampNanos,Date,DateTime,Time,Int,Short,Double,Float,Byte,Char,String\n" ++
    "1451624400000000000,20160101,2016/01/01-00:00:00,0:00,1,1,10,10,1,1,New York\n" ++
    "1451628000000000000,20160101,2016/01/01-01:00:00,1:00,2,2,20,20,2,2,Tokyo\n" ++
    "1483254000000000000,20170101,2017/01/01-02:00:00,2:00,3,3,10,10,3,3,London\n" ++
    "1483282800000000000,20170101,2017/01/01-10:00:00,10:00,4,4,20,20,4,A,New York\n" ++
    "1514822400000000000,20180101,2018/01/01-11:00:00,11:00,5,5,10,10,5,B,Tokyo\n" ++
    "1514826000000000000,20180101,2018/01/01-12:00:00,12:00,6,6,20,20,6,C,London\n" ++
    "1546365600000000000,20190101,2019/01/01-13:00:00,13:00,7,7,10.5,10.5,7,a,New York\n" ++
    "1546394400000000000,20190101,2019/01/01-21:00:00,21:00,8,8,20.5,20.5,8,b,Tokyo\n" ++
    "1575255600000000000,20191201,2019/12/01-22:00:00,22:00,9,9,-10,-10,9,c,London\n" ++
    "1575259200000000000,20191201,2019/12/01-23:00:00,23:00,10,10,-20,-20,10,@,New York\n"

/-- `/repo/tests/reference/test_split_merge_simple.csv` -/
def refSplitMerge : String :=
    "timestampNanos,Date,DateTime,Time,Int,Short,Double,Float,Byte,Char,String\n" ++
    "1451624400000000000,20160101,2016/01/01-00:00:00,0:00,1,1,10,10,1,1,New York\n" ++
    "1451624400000000000,20160101,2016/01/01-00:00:00,0:00,1,1,10,10,1,1,New York\n" ++
    "1451628000000000000,20160101,2016/01/01-01:00:00,1:00,2,2,20,20,2,2,Tokyo\n" ++
    "1451628000000000000,20160101,2016/01/01-01:00:00,1:00,2,2,20,20,2,2,Tokyo\n" ++
    "1483254000000000000,20170101,2017/01/01-02:00:00,2:00,3,3,10,10,3,3,London\n" ++
    "1483254000000000000,20170101,2017/01/01-02:00:00,2:00,3,3,10,10,3,3,London\n" ++
    "1483282800000000000,20170101,2017/01/01-10:00:00,10:00,4,4,20,20,4,A,New York\n" ++
    "1483282800000000000,20170101,2017/01/01-10:00:00,10:00,4,4,20,20,4,A,New York\n" ++
    "1514822400000000000,20180101,2018/01/01-11:00:00,11:00,5,5,10,10,5,B,Tokyo\n" ++
    "1514822400000000000,20180101,2018/01/01-11:00:00,11:00,5,5,10,10,5,B,Tokyo\n" ++
    "1514826000000000000,20180101,2018/01/01-12:00:00,12:00,6,6,20,20,6,C,London\n" ++
    "1514826000000000000,20180101,2018/01/01-12:00:00,12:00,6,6,20,20,6,C,London\n" ++
    "1546365600000000000,20190101,2019/01/01-13:00:00,13:00,7,7,10.5,10.5,7,a,New York\n" ++
    "1546365600000000000,20190101,2019/01/01-13:00:00,13:00,7,7,10.5,10.5,7,a,New York\n" ++
    "1546394400000000000,20190101,2019/01/01-21:00:00,21:00,8,8,20.5,20.5,8,b,Tokyo\n" ++
    "1546394400000000000,20190101,2019/01/01-21:00:00,21:00,8,8,20.5,20.5,8,b,Tokyo\n" ++
    "1575255600000000000,20191201,2019/12/01-22:00:00,22:00,9,9,-10,-10,9,c,London\n" ++
    "1575255600000000000,20191201,2019/12/01-22:00:00,22:00,9,9,-10,-10,9,c,London\n" ++
    "1575259200000000000,20191201,2019/12/01-23:00:00,23:00,10,10,-20,-20,10,@,New York\n" ++
    "1575259200000000000,20191201,2019/12/01-23:00:00,23:00,10,10,-20,-20,10,@,New York\n"

/-- `/repo/tests/reference/test_split_merge_complex_chain2.csv` -/
def refComplex2 : String :=
    "timestampNanos,Date,DateTime,Time,Int,Short,Double,Float,Byte,Char,String\n" ++
    "1451624400000000000,20160101,2016/01/01-00:00:00,0:00,1,1,10,10,1,1,New York\n" ++
    "1451628000000000000,20160101,2016/01/01-01:00:00,1:00,2,2,20,20,2,2,Tokyo\n" ++
    "1483254000000000000,20170101,2017/01/01-02:00:00,2:00,3,3,10,10,3,3,London\n" ++
    "1483282800000000000,20170101,2017/01/01-10:00:00,10:00,4,4,20,20,4,A,New York\n" ++
    "1514822400000000000,20180101,2018/01/01-11:00:00,11:00,5,5,10,10,5,B,Tokyo\n" ++
    "1514826000000000000,20180101,2018/01/01-12:00:00,12:00,6,6,20,20,6,C,London\n" ++
    "1546365600000000000,20190101,2019/01/01-13:00:00,13:00,7,7,10.5,10.5,7,a,New York\n" ++
    "1546394400000000000,20190101,2019/01/01-21:00:00,21:00,8,8,20.5,20.5,8,b,Tokyo\n" ++
    "1575255600000000000,20191201,2019/12/01-22:00:00,22:00,9,9,-10,-10,9,c,London\n" ++
    "1575259200000000000,20191201,2019/12/01-23:00:00,23:00,10,10,-20,-20,10,@,New York\n"

/-- `/repo/tests/reference/test_split_merge_complex_chain3.csv` -/
def refComplex3 : String :=
    "timestampNanos,Date,DateTime,Time,Int,Short,Double,Float,Byte,Char,String\n" ++
    "1451624400000000000,20160101,2016/01/01-00:00:00,0:00,1,1,10,10,1,1,New York\n" ++
    "1451628000000000000,20160101,2016/01/01-01:00:00,1:00,2,2,20,20,2,2,Tokyo\n" ++
    "1483254000000000000,20170101,2017/01/01-02:00:00,2:00,3,3,10,10,3,3,London\n" ++
    "1483282800000000000,20170101,2017/01/01-10:00:00,10:00,4,4,20,20,4,A,New York\n" ++
    "1514822400000000000,20180101,2018/01/01-11:00:00,11:00,5,5,10,10,5,B,Tokyo\n" ++
    "1514826000000000000,20180101,2018/01/01-12:00:00,12:00,6,6,20,20,6,C,London\n" ++
    "1546365600000000000,20190101,2019/01/01-13:00:00,13:00,7,7,10.5,10.5,7,a,New York\n" ++
    "1546394400000000000,20190101,2019/01/01-21:00:00,21:00,8,8,20.5,20.5,8,b,Tokyo\n" ++
    "1575255600000000000,20191201,2019/12/01-22:00:00,22:00,9,9,-10,-10,9,c,London\n" ++
    "1575259200000000000,20191201,2019/12/01-23:00:00,23:00,10,10,-20,-20,10,@,New York\n"

/-- `/repo/tests/reference/test_split_merge_complex_chain4.csv` -/
def refComplex4 : String :=
    "timestampNanos,Date,DateTime,Time,Int,Short,Double,Float,Byte,Char,String\n" ++
    "1451624400000000000,20160101,2016/01/01-00:00:00,0:00,1,1,10,10,1,1,New York\n" ++
    "1451628000000000000,20160101,2016/01/01-01:00:00,1:00,2,2,20,20,2,2,Tokyo\n" ++
    "1483254000000000000,20170101,2017/01/01-02:00:00,2:00,3,3,10,10,3,3,London\n" ++
    "1483282800000000000,20170101,2017/01/01-10:00:00,10:00,4,4,20,20,4,A,New York\n" ++
    "1514822400000000000,20180101,2018/01/01-11:00:00,11:00,5,5,10,10,5,B,Tokyo\n" ++
    "1514826000000000000,20180101,2018/01/01-12:00:00,12:00,6,6,20,20,6,C,London\n" ++
    "1546365600000000000,20190101,2019/01/01-13:00:00,13:00,7,7,10.5,10.5,7,a,New York\n" ++
    "1546394400000000000,20190101,2019/01/01-21:00:00,21:00,8,8,20.5,20.5,8,b,Tokyo\n" ++
    "1575255600000000000,20191201,2019/12/01-22:00:00,22:00,9,9,-10,-10,9,c,London\n" ++
    "1575259200000000000,20191201,2019/12/01-23:00:00,23:00,10,10,-20,-20,10,@,New York\n"

/-- `/repo/tests/reference/test_split_merge_complex_chain5.csv` -/
def refComplex5 : String :=
    "timestampNanos,Date,DateTime,Time,Int,Short,Double,Float,Byte,Char,String\n" ++
    "1451624400000000000,20160101,2016/01/01-00:00:00,0:00,1,1,10,10,1,1,New York\n" ++
    "1451628000000000000,20160101,2016/01/01-01:00:00,1:00,2,2,20,20,2,2,Tokyo\n" ++
    "1483254000000000000,20170101,2017/01/01-02:00:00,2:00,3,3,10,10,3,3,London\n" ++
    "1483282800000000000,20170101,2017/01/01-10:00:00,10:00,4,4,20,20,4,A,New York\n" ++
    "1514822400000000000,20180101,2018/01/01-11:00:00,11:00,5,5,10,10,5,B,Tokyo\n" ++
    "1514826000000000000,20180101,2018/01/01-12:00:00,12:00,6,6,20,20,6,C,London\n" ++
    "1546365600000000000,20190101,2019/01/01-13:00:00,13:00,7,7,10.5,10.5,7,a,New York\n" ++
    "1546394400000000000,20190101,2019/01/01-21:00:00,21:00,8,8,20.5,20.5,8,b,Tokyo\n" ++
    "1575255600000000000,20191201,2019/12/01-22:00:00,22:00,9,9,-10,-10,9,c,London\n" ++
    "1575259200000000000,20191201,2019/12/01-23:00:00,23:00,10,10,-20,-20,10,@,New York\n"

/-- `/repo/tests/reference/test_split_merge_complex_chain7.csv` -/
def refComplex7 : String :=
    "timestampNanos,Date,DateTime,Time,Int,Short,Double,Float,Byte,Char,String\n" ++
    "1451624400000000000,20160101,2016/01/01-00:00:00,0:00,1,1,10,10,1,1,New York\n" ++
    "1451624400000000000,20160101,2016/01/01-00:00:00,0:00,1,1,10,10,1,1,New York\n" ++
    "1451628000000000000,20160101,2016/01/01-01:00:00,1:00,2,2,20,20,2,2,Tokyo\n" ++
    "1451628000000000000,20160101,2016/01/01-01:00:00,1:00,2,2,20,20,2,2,Tokyo\n" ++
    "1483254000000000000,20170101,2017/01/01-02:00:00,2:00,3,3,10,10,3,3,London\n" ++
    "1483254000000000000,20170101,2017/01/01-02:00:00,2:00,3,3,10,10,3,3,London\n" ++
    "1483282800000000000,20170101,2017/01/01-10:00:00,10:00,4,4,20,20,4,A,New York\n" ++
    "1483282800000000000,20170101,2017/01/01-10:00:00,10:00,4,4,20,20,4,A,New York\n" ++
    "1514822400000000000,20180101,2018/01/01-11:00:00,11:00,5,5,10,10,5,B,Tokyo\n" ++
    "1514822400000000000,20180101,2018/01/01-11:00:00,11:00,5,5,10,10,5,B,Tokyo\n" ++
    "1514826000000000000,20180101,2018/01/01-12:00:00,12:00,6,6,20,20,6,C,London\n" ++
    "1514826000000000000,20180101,2018/01/01-12:00:00,12:00,6,6,20,20,6,C,London\n" ++
    "1546365600000000000,20190101,2019/01/01-13:00:00,13:00,7,7,10.5,10.5,7,a,New York\n" ++
    "1546365600000000000,20190101,2019/01/01-13:00:00,13:00,7,7,10.5,10.5,7,a,New York\n" ++
    "1546394400000000000,20190101,2019/01/01-21:00:00,21:00,8,8,20.5,20.5,8,b,Tokyo\n" ++
    "1546394400000000000,20190101,2019/01/01-21:00:00,21:00,8,8,20.5,20.5,8,b,Tokyo\n" ++
    "1575255600000000000,20191201,2019/12/01-22:00:00,22:00,9,9,-10,-10,9,c,London\n" ++
    "1575255600000000000,20191201,2019/12/01-22:00:00,22:00,9,9,-10,-10,9,c,London\n" ++
    "1575259200000000000,20191201,2019/12/01-23:00:00,23:00,10,10,-20,-20,10,@,New York\n" ++
    "1575259200000000000,20191201,2019/12/01-23:00:00,23:00,10,10,-20,-20,10,@,New York\n"

/-! ## The world of the tests -/

/-- The offset changes of `America/New_York` from 2015 to 2020. -/
def newYork : TzSpans := ⟨-18000, [(1425798000, -14400), (1446357600, -18000), (1457852400, -14400), (1478412000, -18000), (1489302000, -14400), (1509861600, -18000), (1520751600, -14400),
  (1541311200, -18000), (1552201200, -14400), (1572760800, -18000), (1583650800, -14400), (1604210400, -18000)]⟩

def env : CsvEnv := ⟨.panics, chrono, csvCrate, rustIsF64, fun s => s.map asciiLower⟩

def path (s : String) : Path := utf8Encode s.toList

/-- The files in `/repo/tests/input`. -/
def files : List (Path × List Byte) :=
  [(path "./tests/input/time_city.csv", utf8Encode timeCity.toList), (path "./tests/input/time_city.csv.gz", timeCityGz), (path "./tests/input/multi_file/1.csv", utf8Encode multi1.toList),
   (path "./tests/input/multi_file/2.csv", utf8Encode multi2.toList), (path "./tests/input/multi_file/3.csv", utf8Encode multi3.toList), (path "./tests/input/multi_file/inner/inner.csv", utf8Encode multiInner.toList)]

/-- ... as a world; the directory is listed in some order. -/
def world : World :=
  { pathExists := fun p => (files.lookup p).isSome || p == path "./tests/input/multi_file" || p == path "./tests/input/multi_file/inner"
    isDir := fun p => p == path "./tests/input/multi_file" || p == path "./tests/input/multi_file/inner"
    file := fun p => (files.lookup p).map fun c => ⟨c, [], none⟩
    listing := fun p => if p == path "./tests/input/multi_file" then
        some (["./tests/input/multi_file/inner", "./tests/input/multi_file/2.csv", "./tests/input/multi_file/3.csv", "./tests/input/multi_file/1.csv"].map fun x => some (path x))
      else none
    http := fun _ => .err (.io .other)
    stdin := ⟨[], [], none⟩ }

/-- gzip as modelled in `Model/Gzip` (header, checksum, length); only inflating is given by the result. -/
def gz : GzCrate := ⟨fun body => .complete (utf8Encode timeCity.toList) (body.drop (body.length - 8)), fun _ => []⟩

def dec : Decoders := ⟨gzReader gz, fun r => r.inner, fun r => r.inner, fun _ => none, fun _ => none⟩

def zipLib : ZipLib := ⟨fun _ => [], id, id, []⟩

def sinkEnv : SinkEnv := ⟨⟨fun _ => [], fun _ => []⟩, ⟨fun bs => [bs], by simp⟩, .panics⟩

/-- `CSVInputConfig::new(None, YesNoAuto::Auto, ts_config)?` and `InputFactory::new(csv_input_config, None, None)?`. -/
def inputs (col : TimestampColConfig) (fmt : TimestampFmtConfig) : Inputs FileSource :=
  newInputs env dec zipLib world (some ⟨none, .auto, col, fmt, some newYork.fromLocal⟩) [] []

/-- The sources are opened one after the other. -/
def openAll (col : TimestampColConfig) (fmt : TimestampFmtConfig) : List String → Res (List FileSource)
  | [] => .ok []
  | p :: ps => (createFromInput (inputs col fmt) world ⟨.path p.toList, .auto⟩).bind fun f => (openAll col fmt ps).bind fun fs => .ok (f :: fs)

/-- The sinks of the tests: those of the library, and `MultiRowFilter` (`/repo/tests/test_multi_row_output.rs:68-89`). -/
inductive TSink where
  | lib (s : LibSink)
  | triple

def tOps : SinkOps TSink :=
  ⟨fun s r => match s with
    | .lib s => let o := s.write sinkEnv r; (.lib o.1, o.2)
    | .triple => (.triple, .ok [r, r, r]),
   fun s => match s with
    | .lib s => let o := s.flush; (.lib o.1, o.2)
    | .triple => (.triple, .ok ())⟩

/-- `CSVOutputConfig::new_default()`. -/
def defaultOut : CsvOutputConfig := CsvOutputConfig.new [','] true none .epoch .nanos none

/-- `factory::new_header_sink(Some(output), Some(csv_output_config))?` with a new file. -/
def output : HNode TSink := .sink fun h => ((newHeaderSink sinkEnv ⟨fun _ => some ⟨[], [], 0⟩, ⟨[], [], 0⟩⟩ (some "x.csv".toList) defaultOut).2.bind (outHeader · h)).map fun p => (.lib p.1, p.2)

def node (f : Header → Res (BSink × Header)) : HNode TSink := .sink fun h => (nodeHeader f h).map fun p => (.lib p.1, p.2)

/-- What is in the files of a chain after the sinks are dropped. -/
def chainFiles (c : DChain TSink) : List (List Byte) :=
  c.filterMap fun n => match n with
    | .sink (.lib (.out (.csv _ w))) => some w.close.taken
    | _ => none

/-- A test: open the inputs, make the graph and the driver, drive; the files written by the chains. -/
def run (ins : Res (List FileSource)) (chains : List (HChain TSink)) (range : TimestampRange) : Res (List (List Byte)) :=
  ins.bind fun fs =>
  (newDriver true (.lib (.node .mergeJoin)) 100 fs.length chains (fs.map (·.header))).bind fun g =>
  match driveGraph tOps range 100 1000 (fs.map (·.source)) g with
  | (g', .ok ()) => .ok (g'.chains.flatMap chainFiles)
  | (_, .err e) => .err e
  | (_, .panic) => .panic
  | (_, .diverge) => .diverge

def dateTime : TimestampColConfig := .name "DateTime".toList
def city : String := "./tests/input/time_city.csv"

/-- `/repo/tests/test_timestamp.rs (first)` -/
def t1 := run (openAll (.index 1) (.explicit "%Y/%m/%d-%H:%M:%S".toList) [city]) [[output]] .all
/-- `/repo/tests/test_timestamp.rs (second)` -/
def t2 := run (openAll (.dateTimeIndex 0 2) (.dateTimeExplicit "%Y%m%d".toList "%-H:%M".toList) [city]) [[output]] .all
/-- `/repo/tests/test_merge.rs` -/
def t3 := run (openAll dateTime .auto [city, city]) [[.merge 2], [.merge 2], [.mergeSink none 2, output]] .all
/-- `/repo/tests/test_decompress.rs` -/
def t4 := run (openAll dateTime .auto ["./tests/input/time_city.csv.gz"]) [[output]] .all
/-- `/repo/tests/test_multi_file.rs` -/
def t5 := run (openAll .auto .auto ["./tests/input/multi_file"]) [[output]] .all
/-- `/repo/tests/test_multi_row_output.rs` -/
def t6 := run (openAll dateTime .auto [city]) [[.sink fun h => .ok (.triple, h), output]] .all
/-- `/repo/tests/test_filters.rs` -/
def t7 := (parseDatetimeRangeElement .panics chrono (some newYork.fromLocal) "2018".toList).bind fun b =>
  run (openAll dateTime .auto [city]) [[node (equalHeader "String".toList (.string "New York".toList)), node (greaterHeader "Double".toList (.string "10.0".toList)), node (deleteHeader "Char".toList), output]] ⟨some b, none⟩
/-- `/repo/tests/test_split_merge_simple.rs` -/
def t8 := run (openAll dateTime .auto [city]) [[.splitSink [1, 2] 2], [.merge 3], [.merge 3], [.mergeSink none 2, output]] .all
/-- `/repo/tests/test_split_merge_complex.rs` -/
def t9 := run (openAll dateTime .auto [city]) [[.splitSink [1, 2] 2], [.splitSink [3, 4] 2], [.splitSink [5, 6] 2, output], [output], [.merge 7, output], [output], [.merge 7], [.mergeSink none 2, output]] .all
/-- The files written are the reference files. -/
def ok (r : Res (List (List Byte))) (e : List String) : Bool := r == .ok (e.map fun s => utf8Encode s.toList)
#guard ok t1 [refTimestamp1]
#guard ok t2 [refTimestamp2]
#guard ok t3 [refMerge]
#guard ok t4 [refDecompress]
#guard ok t5 [refMultiFile]
#guard ok t6 [refMultiRow]
#guard ok t7 [refFilters]
#guard ok t8 [refSplitMerge]
#guard ok t9 [refComplex2, refComplex3, refComplex4, refComplex5, refComplex7]
end Chopper.Tests

