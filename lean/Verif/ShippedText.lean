import Verif.JsonSame
import Verif.Shipped

/-!
# The texts of the shipped files (conf/*/grammar.json, gcode_groups.json, mcode_groups.json)

Written by tools/shippedtext.py.  Lines and files with the same contents are given once.  Each text is shown to be read as
the tree of the same file in `Shipped`.
-/

namespace NC.Shipped
open NC NC.Conf NC.JFile

/-- A line of the files. -/
def line0 : Str := c!"{\r\n"
/-- A line of the files. -/
def line1 : Str := c!"    \"version\": \"1.0\",\r\n"
/-- A line of the files. -/
def line2 : Str := c!"    \"operations\": [\r\n"
/-- A line of the files. -/
def line3 : Str := c!"        \"SIN\",\r\n"
/-- A line of the files. -/
def line4 : Str := c!"        \"COS\",\r\n"
/-- A line of the files. -/
def line5 : Str := c!"        \"TAN\",\r\n"
/-- A line of the files. -/
def line6 : Str := c!"        \"ATAN\",\r\n"
/-- A line of the files. -/
def line7 : Str := c!"        \"SQRT\",\r\n"
/-- A line of the files. -/
def line8 : Str := c!"        \"ABS\",\r\n"
/-- A line of the files. -/
def line9 : Str := c!"        \"ROUND\",\r\n"
/-- A line of the files. -/
def line10 : Str := c!"        \"FIX\",\r\n"
/-- A line of the files. -/
def line11 : Str := c!"        \"FUP\",\r\n"
/-- A line of the files. -/
def line12 : Str := c!"        \"OR\",\r\n"
/-- A line of the files. -/
def line13 : Str := c!"        \"XOR\",\r\n"
/-- A line of the files. -/
def line14 : Str := c!"        \"AND\",\r\n"
/-- A line of the files. -/
def line15 : Str := c!"        \"BIN\",\r\n"
/-- A line of the files. -/
def line16 : Str := c!"        \"BCD\",\r\n"
/-- A line of the files. -/
def line17 : Str := c!"        \"IF\",\r\n"
/-- A line of the files. -/
def line18 : Str := c!"        \"WHILE\",\r\n"
/-- A line of the files. -/
def line19 : Str := c!"        \"DO\",\r\n"
/-- A line of the files. -/
def line20 : Str := c!"        \"END\",\r\n"
/-- A line of the files. -/
def line21 : Str := c!"        \"EQ\",\r\n"
/-- A line of the files. -/
def line22 : Str := c!"        \"NE\",\r\n"
/-- A line of the files. -/
def line23 : Str := c!"        \"GT\",\r\n"
/-- A line of the files. -/
def line24 : Str := c!"        \"GE\",\r\n"
/-- A line of the files. -/
def line25 : Str := c!"        \"LT\",\r\n"
/-- A line of the files. -/
def line26 : Str := c!"        \"LE\"\r\n"
/-- A line of the files. -/
def line27 : Str := c!"    ],\r\n"
/-- A line of the files. -/
def line28 : Str := c!"    \"imperial\": {\r\n"
/-- A line of the files. -/
def line29 : Str := c!"        \",C\": {\r\n"
/-- A line of the files. -/
def line30 : Str := c!"            \"word\": \",C\",\r\n"
/-- A line of the files. -/
def line31 : Str := c!"            \"range_from\": -999,\r\n"
/-- A line of the files. -/
def line32 : Str := c!"            \"range_to\": 999,\r\n"
/-- A line of the files. -/
def line33 : Str := c!"            \"decimal_from\": 0,\r\n"
/-- A line of the files. -/
def line34 : Str := c!"            \"decimal_to\": 9999,\r\n"
/-- A line of the files. -/
def line35 : Str := c!"            \"unique\": false,\r\n"
/-- A line of the files. -/
def line36 : Str := c!"            \"type\": \"misc\"\r\n"
/-- A line of the files. -/
def line37 : Str := c!"        },\r\n"
/-- A line of the files. -/
def line38 : Str := c!"        \",R\": {\r\n"
/-- A line of the files. -/
def line39 : Str := c!"            \"word\": \",R\",\r\n"
/-- A line of the files. -/
def line40 : Str := c!"        \":\": {\r\n"
/-- A line of the files. -/
def line41 : Str := c!"            \"word\": \":\",\r\n"
/-- A line of the files. -/
def line42 : Str := c!"            \"range_from\": 0,\r\n"
/-- A line of the files. -/
def line43 : Str := c!"            \"range_to\": 9999,\r\n"
/-- A line of the files. -/
def line44 : Str := c!"            \"decimal_to\": 0,\r\n"
/-- A line of the files. -/
def line45 : Str := c!"            \"type\": \"numbering\"\r\n"
/-- A line of the files. -/
def line46 : Str := c!"        \"#\": {\r\n"
/-- A line of the files. -/
def line47 : Str := c!"            \"word\": \"#\",\r\n"
/-- A line of the files. -/
def line48 : Str := c!"            \"range_to\": 99999,\r\n"
/-- A line of the files. -/
def line49 : Str := c!"            \"type\": \"macro\"\r\n"
/-- A line of the files. -/
def line50 : Str := c!"        \"=\": {\r\n"
/-- A line of the files. -/
def line51 : Str := c!"            \"word\": \"=\",\r\n"
/-- A line of the files. -/
def line52 : Str := c!"            \"range_from\": -9999,\r\n"
/-- A line of the files. -/
def line53 : Str := c!"            \"type\": \"calc\"\r\n"
/-- A line of the files. -/
def line54 : Str := c!"        \"+\": {\r\n"
/-- A line of the files. -/
def line55 : Str := c!"            \"word\": \"+\",\r\n"
/-- A line of the files. -/
def line56 : Str := c!"        \"-\": {\r\n"
/-- A line of the files. -/
def line57 : Str := c!"            \"word\": \"-\",\r\n"
/-- A line of the files. -/
def line58 : Str := c!"        \"*\": {\r\n"
/-- A line of the files. -/
def line59 : Str := c!"            \"word\": \"*\",\r\n"
/-- A line of the files. -/
def line60 : Str := c!"        \"/\": {\r\n"
/-- A line of the files. -/
def line61 : Str := c!"            \"word\": \"/\",\r\n"
/-- A line of the files. -/
def line62 : Str := c!"        \"A\": {\r\n"
/-- A line of the files. -/
def line63 : Str := c!"            \"word\": \"A\",\r\n"
/-- A line of the files. -/
def line64 : Str := c!"            \"unique\": true,\r\n"
/-- A line of the files. -/
def line65 : Str := c!"            \"type\": \"angle\"\r\n"
/-- A line of the files. -/
def line66 : Str := c!"        \"A2\": {\r\n"
/-- A line of the files. -/
def line67 : Str := c!"            \"word\": \"A2\",\r\n"
/-- A line of the files. -/
def line68 : Str := c!"            \"type\": \"assignable\"\r\n"
/-- A line of the files. -/
def line69 : Str := c!"        \"B\": {\r\n"
/-- A line of the files. -/
def line70 : Str := c!"            \"word\": \"B\",\r\n"
/-- A line of the files. -/
def line71 : Str := c!"        \"B2\": {\r\n"
/-- A line of the files. -/
def line72 : Str := c!"            \"word\": \"B2\",\r\n"
/-- A line of the files. -/
def line73 : Str := c!"        \"C\": {\r\n"
/-- A line of the files. -/
def line74 : Str := c!"            \"word\": \"C\",\r\n"
/-- A line of the files. -/
def line75 : Str := c!"        \"C2\": {\r\n"
/-- A line of the files. -/
def line76 : Str := c!"            \"word\": \"C2\",\r\n"
/-- A line of the files. -/
def line77 : Str := c!"        \"D\": {\r\n"
/-- A line of the files. -/
def line78 : Str := c!"            \"word\": \"D\",\r\n"
/-- A line of the files. -/
def line79 : Str := c!"            \"decimal_to\": 999,\r\n"
/-- A line of the files. -/
def line80 : Str := c!"        \"F\": {\r\n"
/-- A line of the files. -/
def line81 : Str := c!"            \"word\": \"F\",\r\n"
/-- A line of the files. -/
def line82 : Str := c!"            \"type\": \"feed\"\r\n"
/-- A line of the files. -/
def line83 : Str := c!"        \"G\": {\r\n"
/-- A line of the files. -/
def line84 : Str := c!"            \"word\": \"G\",\r\n"
/-- A line of the files. -/
def line85 : Str := c!"            \"decimal_to\": 9,\r\n"
/-- A line of the files. -/
def line86 : Str := c!"            \"type\": \"code\"\r\n"
/-- A line of the files. -/
def line87 : Str := c!"        \"H\": {\r\n"
/-- A line of the files. -/
def line88 : Str := c!"            \"word\": \"H\",\r\n"
/-- A line of the files. -/
def line89 : Str := c!"        \"I\": {\r\n"
/-- A line of the files. -/
def line90 : Str := c!"            \"word\": \"I\",\r\n"
/-- A line of the files. -/
def line91 : Str := c!"            \"type\": \"length\"\r\n"
/-- A line of the files. -/
def line92 : Str := c!"        \"J\": {\r\n"
/-- A line of the files. -/
def line93 : Str := c!"            \"word\": \"J\",\r\n"
/-- A line of the files. -/
def line94 : Str := c!"        \"K\": {\r\n"
/-- A line of the files. -/
def line95 : Str := c!"            \"word\": \"K\",\r\n"
/-- A line of the files. -/
def line96 : Str := c!"        \"L\": {\r\n"
/-- A line of the files. -/
def line97 : Str := c!"            \"word\": \"L\",\r\n"
/-- A line of the files. -/
def line98 : Str := c!"        \"M\": {\r\n"
/-- A line of the files. -/
def line99 : Str := c!"            \"word\": \"M\",\r\n"
/-- A line of the files. -/
def line100 : Str := c!"        \"N\": {\r\n"
/-- A line of the files. -/
def line101 : Str := c!"            \"word\": \"N\",\r\n"
/-- A line of the files. -/
def line102 : Str := c!"            \"range_from\": 1,\r\n"
/-- A line of the files. -/
def line103 : Str := c!"        \"P\": {\r\n"
/-- A line of the files. -/
def line104 : Str := c!"            \"word\": \"P\",\r\n"
/-- A line of the files. -/
def line105 : Str := c!"        \"Q\": {\r\n"
/-- A line of the files. -/
def line106 : Str := c!"            \"word\": \"Q\",\r\n"
/-- A line of the files. -/
def line107 : Str := c!"        \"R\": {\r\n"
/-- A line of the files. -/
def line108 : Str := c!"            \"word\": \"R\",\r\n"
/-- A line of the files. -/
def line109 : Str := c!"        \"S\": {\r\n"
/-- A line of the files. -/
def line110 : Str := c!"            \"word\": \"S\",\r\n"
/-- A line of the files. -/
def line111 : Str := c!"        \"S1\": {\r\n"
/-- A line of the files. -/
def line112 : Str := c!"            \"word\": \"S1\",\r\n"
/-- A line of the files. -/
def line113 : Str := c!"        \"S2\": {\r\n"
/-- A line of the files. -/
def line114 : Str := c!"            \"word\": \"S2\",\r\n"
/-- A line of the files. -/
def line115 : Str := c!"        \"S3\": {\r\n"
/-- A line of the files. -/
def line116 : Str := c!"            \"word\": \"S3\",\r\n"
/-- A line of the files. -/
def line117 : Str := c!"        \"T\": {\r\n"
/-- A line of the files. -/
def line118 : Str := c!"            \"word\": \"T\",\r\n"
/-- A line of the files. -/
def line119 : Str := c!"        \"X\": {\r\n"
/-- A line of the files. -/
def line120 : Str := c!"            \"word\": \"X\",\r\n"
/-- A line of the files. -/
def line121 : Str := c!"        \"Y\": {\r\n"
/-- A line of the files. -/
def line122 : Str := c!"            \"word\": \"Y\",\r\n"
/-- A line of the files. -/
def line123 : Str := c!"        \"Z\": {\r\n"
/-- A line of the files. -/
def line124 : Str := c!"            \"word\": \"Z\",\r\n"
/-- A line of the files. -/
def line125 : Str := c!"        \"U\": {\r\n"
/-- A line of the files. -/
def line126 : Str := c!"            \"word\": \"U\",\r\n"
/-- A line of the files. -/
def line127 : Str := c!"        \"V\": {\r\n"
/-- A line of the files. -/
def line128 : Str := c!"            \"word\": \"V\",\r\n"
/-- A line of the files. -/
def line129 : Str := c!"        \"W\": {\r\n"
/-- A line of the files. -/
def line130 : Str := c!"            \"word\": \"W\",\r\n"
/-- A line of the files. -/
def line131 : Str := c!"        \"GOTO\": {\r\n"
/-- A line of the files. -/
def line132 : Str := c!"            \"word\": \"GOTO\",\r\n"
/-- A line of the files. -/
def line133 : Str := c!"        }\r\n"
/-- A line of the files. -/
def line134 : Str := c!"    },\r\n"
/-- A line of the files. -/
def line135 : Str := c!"    \"metric\": {\r\n"
/-- A line of the files. -/
def line136 : Str := c!"            \"range_from\": -99999,\r\n"
/-- A line of the files. -/
def line137 : Str := c!"            \"decimal_to\": 99999,\r\n"
/-- A line of the files. -/
def line138 : Str := c!"    }\r\n"
/-- A line of the files. -/
def line139 : Str := c!"}"
/-- A line of the files. -/
def line140 : Str := c!"\t\"version\": \"1.0\",\r\n"
/-- A line of the files. -/
def line141 : Str := c!"\t\"groups\": {\r\n"
/-- A line of the files. -/
def line142 : Str := c!"\t\t\"0\": [{\r\n"
/-- A line of the files. -/
def line143 : Str := c!"\t\t\t\"code\": 4,\r\n"
/-- A line of the files. -/
def line144 : Str := c!"\t\t\t\"rest\": 0\r\n"
/-- A line of the files. -/
def line145 : Str := c!"\t\t}, {\r\n"
/-- A line of the files. -/
def line146 : Str := c!"\t\t\t\"code\": 5,\r\n"
/-- A line of the files. -/
def line147 : Str := c!"\t\t\t\"rest\": 1\r\n"
/-- A line of the files. -/
def line148 : Str := c!"\t\t\t\"rest\": 4\r\n"
/-- A line of the files. -/
def line149 : Str := c!"\t\t\t\"code\": 7,\r\n"
/-- A line of the files. -/
def line150 : Str := c!"\t\t\t\"code\": 8,\r\n"
/-- A line of the files. -/
def line151 : Str := c!"\t\t\t\"code\": 9,\r\n"
/-- A line of the files. -/
def line152 : Str := c!"\t\t\t\"code\": 10,\r\n"
/-- A line of the files. -/
def line153 : Str := c!"\t\t\t\"rest\": 6\r\n"
/-- A line of the files. -/
def line154 : Str := c!"\t\t\t\"rest\": 9\r\n"
/-- A line of the files. -/
def line155 : Str := c!"\t\t\t\"code\": 11,\r\n"
/-- A line of the files. -/
def line156 : Str := c!"\t\t\t\"code\": 27,\r\n"
/-- A line of the files. -/
def line157 : Str := c!"\t\t\t\"code\": 28,\r\n"
/-- A line of the files. -/
def line158 : Str := c!"\t\t\t\"code\": 29,\r\n"
/-- A line of the files. -/
def line159 : Str := c!"\t\t\t\"code\": 30,\r\n"
/-- A line of the files. -/
def line160 : Str := c!"\t\t\t\"code\": 31,\r\n"
/-- A line of the files. -/
def line161 : Str := c!"\t\t\t\"rest\": 8\r\n"
/-- A line of the files. -/
def line162 : Str := c!"\t\t\t\"code\": 50,\r\n"
/-- A line of the files. -/
def line163 : Str := c!"\t\t\t\"rest\": 3\r\n"
/-- A line of the files. -/
def line164 : Str := c!"\t\t\t\"code\": 52,\r\n"
/-- A line of the files. -/
def line165 : Str := c!"\t\t\t\"code\": 53,\r\n"
/-- A line of the files. -/
def line166 : Str := c!"\t\t\t\"code\": 60,\r\n"
/-- A line of the files. -/
def line167 : Str := c!"\t\t\t\"code\": 65,\r\n"
/-- A line of the files. -/
def line168 : Str := c!"\t\t\t\"code\": 70,\r\n"
/-- A line of the files. -/
def line169 : Str := c!"\t\t\t\"code\": 71,\r\n"
/-- A line of the files. -/
def line170 : Str := c!"\t\t\t\"code\": 72,\r\n"
/-- A line of the files. -/
def line171 : Str := c!"\t\t\t\"rest\": 2\r\n"
/-- A line of the files. -/
def line172 : Str := c!"\t\t\t\"code\": 73,\r\n"
/-- A line of the files. -/
def line173 : Str := c!"\t\t\t\"code\": 74,\r\n"
/-- A line of the files. -/
def line174 : Str := c!"\t\t\t\"code\": 75,\r\n"
/-- A line of the files. -/
def line175 : Str := c!"\t\t\t\"code\": 76,\r\n"
/-- A line of the files. -/
def line176 : Str := c!"\t\t\t\"code\": 91,\r\n"
/-- A line of the files. -/
def line177 : Str := c!"\t\t\t\"code\": 107,\r\n"
/-- A line of the files. -/
def line178 : Str := c!"\t\t\t\"rest\": 0\t\t\t\r\n"
/-- A line of the files. -/
def line179 : Str := c!"\t\t}],\r\n"
/-- A line of the files. -/
def line180 : Str := c!"\t\t\"1\": [{\r\n"
/-- A line of the files. -/
def line181 : Str := c!"\t\t\t\"code\": 0,\r\n"
/-- A line of the files. -/
def line182 : Str := c!"\t\t\t\"code\": 1,\r\n"
/-- A line of the files. -/
def line183 : Str := c!"\t\t\t\"code\": 2,\r\n"
/-- A line of the files. -/
def line184 : Str := c!"\t\t\t\"code\": 3,\r\n"
/-- A line of the files. -/
def line185 : Str := c!"\t\t\t\"code\": 6,\r\n"
/-- A line of the files. -/
def line186 : Str := c!"\t\t\t\"code\": 32,\r\n"
/-- A line of the files. -/
def line187 : Str := c!"\t\t\t\"code\": 34,\r\n"
/-- A line of the files. -/
def line188 : Str := c!"\t\t\t\"code\": 35,\r\n"
/-- A line of the files. -/
def line189 : Str := c!"\t\t\t\"code\": 36,\r\n"
/-- A line of the files. -/
def line190 : Str := c!"\t\t\t}, {\r\n"
/-- A line of the files. -/
def line191 : Str := c!"\t\t\t\"code\": 37,\r\n"
/-- A line of the files. -/
def line192 : Str := c!"\t\t\t\"code\": 38,\r\n"
/-- A line of the files. -/
def line193 : Str := c!"\t\t\t\"code\": 39,\r\n"
/-- A line of the files. -/
def line194 : Str := c!"\t\t\t\"code\": 90,\r\n"
/-- A line of the files. -/
def line195 : Str := c!"\t\t\t\"code\": 92,\r\n"
/-- A line of the files. -/
def line196 : Str := c!"\t\t\t\"code\": 94,\r\n"
/-- A line of the files. -/
def line197 : Str := c!"\t\t\"2\": [{\r\n"
/-- A line of the files. -/
def line198 : Str := c!"\t\t\t\"code\": 96,\r\n"
/-- A line of the files. -/
def line199 : Str := c!"\t\t\t\"code\": 97,\r\n"
/-- A line of the files. -/
def line200 : Str := c!"\t\t\"4\": [{\r\n"
/-- A line of the files. -/
def line201 : Str := c!"\t\t\t\"code\": 68,\r\n"
/-- A line of the files. -/
def line202 : Str := c!"\t\t\t\"code\": 69,\r\n"
/-- A line of the files. -/
def line203 : Str := c!"\t\t\"5\": [{\r\n"
/-- A line of the files. -/
def line204 : Str := c!"\t\t\t\"code\": 93,\r\n"
/-- A line of the files. -/
def line205 : Str := c!"\t\t\t\"code\": 98,\r\n"
/-- A line of the files. -/
def line206 : Str := c!"\t\t\t\"code\": 99,\r\n"
/-- A line of the files. -/
def line207 : Str := c!"\t\t\"6\": [{\r\n"
/-- A line of the files. -/
def line208 : Str := c!"\t\t\t\"code\": 20,\r\n"
/-- A line of the files. -/
def line209 : Str := c!"\t\t\t\"code\": 21,\r\n"
/-- A line of the files. -/
def line210 : Str := c!"\t\t\"7\": [{\r\n"
/-- A line of the files. -/
def line211 : Str := c!"\t\t\t\"code\": 40,\r\n"
/-- A line of the files. -/
def line212 : Str := c!"\t\t\t\"code\": 41,\r\n"
/-- A line of the files. -/
def line213 : Str := c!"\t\t\t\"rest\": 5\r\n"
/-- A line of the files. -/
def line214 : Str := c!"\t\t\t\"code\": 42,\r\n"
/-- A line of the files. -/
def line215 : Str := c!"\t\t\"8\": [{\r\n"
/-- A line of the files. -/
def line216 : Str := c!"\t\t\t\"code\": 25,\r\n"
/-- A line of the files. -/
def line217 : Str := c!"\t\t\t\"code\": 26,\r\n"
/-- A line of the files. -/
def line218 : Str := c!"\t\t\"9\": [{\r\n"
/-- A line of the files. -/
def line219 : Str := c!"\t\t\t\"code\": 22,\r\n"
/-- A line of the files. -/
def line220 : Str := c!"\t\t\t\"code\": 23,\r\n"
/-- A line of the files. -/
def line221 : Str := c!"\t\t\"10\": [{\r\n"
/-- A line of the files. -/
def line222 : Str := c!"\t\t\t\"code\": 80,\r\n"
/-- A line of the files. -/
def line223 : Str := c!"\t\t\t\"code\": 81,\r\n"
/-- A line of the files. -/
def line224 : Str := c!"\t\t\t\"code\": 82,\r\n"
/-- A line of the files. -/
def line225 : Str := c!"\t\t\t\"code\": 83,\r\n"
/-- A line of the files. -/
def line226 : Str := c!"\t\t\t\"code\": 84,\r\n"
/-- A line of the files. -/
def line227 : Str := c!"\t\t\t\"code\": 85,\r\n"
/-- A line of the files. -/
def line228 : Str := c!"\t\t\t\"code\": 87,\r\n"
/-- A line of the files. -/
def line229 : Str := c!"\t\t\t\"code\": 88,\r\n"
/-- A line of the files. -/
def line230 : Str := c!"\t\t\t\"code\": 89,\r\n"
/-- A line of the files. -/
def line231 : Str := c!"\t\t\"12\": [{\r\n"
/-- A line of the files. -/
def line232 : Str := c!"\t\t\t\"code\": 66,\r\n"
/-- A line of the files. -/
def line233 : Str := c!"\t\t\t\"code\": 67,\r\n"
/-- A line of the files. -/
def line234 : Str := c!"\t\t\"14\": [{\r\n"
/-- A line of the files. -/
def line235 : Str := c!"\t\t\t\"code\": 54,\r\n"
/-- A line of the files. -/
def line236 : Str := c!"\t\t\t\"code\": 55,\r\n"
/-- A line of the files. -/
def line237 : Str := c!"\t\t\t\"code\": 56,\r\n"
/-- A line of the files. -/
def line238 : Str := c!"\t\t\t\"code\": 57,\r\n"
/-- A line of the files. -/
def line239 : Str := c!"\t\t\t\"code\": 58,\r\n"
/-- A line of the files. -/
def line240 : Str := c!"\t\t\t\"code\": 59,\r\n"
/-- A line of the files. -/
def line241 : Str := c!"\t\t\"15\": [{\r\n"
/-- A line of the files. -/
def line242 : Str := c!"\t\t\t\"code\": 61,\r\n"
/-- A line of the files. -/
def line243 : Str := c!"\t\t\t\"code\": 62,\r\n"
/-- A line of the files. -/
def line244 : Str := c!"\t\t\t\"code\": 63,\r\n"
/-- A line of the files. -/
def line245 : Str := c!"\t\t\t\"code\": 64,\r\n"
/-- A line of the files. -/
def line246 : Str := c!"\t\t\"16\": [{\r\n"
/-- A line of the files. -/
def line247 : Str := c!"\t\t\t\"code\": 17,\r\n"
/-- A line of the files. -/
def line248 : Str := c!"\t\t\t\"code\": 18,\r\n"
/-- A line of the files. -/
def line249 : Str := c!"\t\t\t\"code\": 19,\r\n"
/-- A line of the files. -/
def line250 : Str := c!"\t\t\"17\": [{\r\n"
/-- A line of the files. -/
def line251 : Str := c!"\t\t\"20\": [{\r\n"
/-- A line of the files. -/
def line252 : Str := c!"\t\t\t\"code\": 51,\r\n"
/-- A line of the files. -/
def line253 : Str := c!"\t\t\t\"code\": 250,\r\n"
/-- A line of the files. -/
def line254 : Str := c!"\t\t\t\"code\": 251,\r\n"
/-- A line of the files. -/
def line255 : Str := c!"\t\t\"21\": [{\r\n"
/-- A line of the files. -/
def line256 : Str := c!"\t\t\t\"code\": 12,\r\n"
/-- A line of the files. -/
def line257 : Str := c!"\t\t\t\"code\": 13,\r\n"
/-- A line of the files. -/
def line258 : Str := c!"\t\t\t\"code\": 112,\r\n"
/-- A line of the files. -/
def line259 : Str := c!"\t\t\t\"code\": 113,\r\n"
/-- A line of the files. -/
def line260 : Str := c!"\t\t\"22\": [{\r\n"
/-- A line of the files. -/
def line261 : Str := c!"\t\t\"23\": [{\r\n"
/-- A line of the files. -/
def line262 : Str := c!"\t\t\t\"code\": 43,\r\n"
/-- A line of the files. -/
def line263 : Str := c!"\t\t\t\"rest\": 7\r\n"
/-- A line of the files. -/
def line264 : Str := c!"\t\t\t\"code\": 44,\r\n"
/-- A line of the files. -/
def line265 : Str := c!"\t\t\t\"code\": 49,\r\n"
/-- A line of the files. -/
def line266 : Str := c!"\t\t\"24\": [{\r\n"
/-- A line of the files. -/
def line267 : Str := c!"\t\t\t\"code\": 15,\r\n"
/-- A line of the files. -/
def line268 : Str := c!"\t\t\t\"code\": 16,\r\n"
/-- A line of the files. -/
def line269 : Str := c!"\t\t\"27\": [{\r\n"
/-- A line of the files. -/
def line270 : Str := c!"\t\t\"28\": [{\r\n"
/-- A line of the files. -/
def line271 : Str := c!"\t\t}]\r\n"
/-- A line of the files. -/
def line272 : Str := c!"\t}\r\n"
/-- A line of the files. -/
def line273 : Str := c!"}\r\n"
/-- A line of the files. -/
def line274 : Str := c!"\t\t\t\"code\": 14,\r\n"
/-- A line of the files. -/
def line275 : Str := c!"\t\t\"3\": [{\r\n"
/-- A line of the files. -/
def line276 : Str := c!"\t\t\t\"code\": 48,\r\n"
/-- A line of the files. -/
def line277 : Str := c!"\t\t\"11\": [{\r\n"
/-- A line of the files. -/
def line278 : Str := c!"\t\t\t\"code\": 24,\r\n"
/-- A line of the files. -/
def line279 : Str := c!"\t\t\"13\": [{\r\n"
/-- A line of the files. -/
def line280 : Str := c!"\t\t\t\"code\": 198,\r\n"
/-- A line of the files. -/
def line281 : Str := c!"\t\t\t\"code\": 271,\r\n"
/-- A line of the files. -/
def line282 : Str := c!"\t\t\"18\": [{\r\n"
/-- A line of the files. -/
def line283 : Str := c!"\t\t\t\"code\": 33,\r\n"
/-- A line of the files. -/
def line284 : Str := c!"\t\t\"19\": [{\r\n"
/-- A line of the files. -/
def line285 : Str := c!"\t\t\"25\": [{\r\n"
/-- A line of the files. -/
def line286 : Str := c!"\t\t\"26\": [{\r\n"
/-- A line of the files. -/
def line287 : Str := c!"\t\t\"29\": [{\r\n"
/-- A line of the files. -/
def line288 : Str := c!"\t\t\t\"code\": 45,\r\n"
/-- A line of the files. -/
def line289 : Str := c!"\t\t\"30\": [{\r\n"
/-- A line of the files. -/
def line290 : Str := c!"\t\t\t\"code\": 46,\r\n"
/-- A line of the files. -/
def line291 : Str := c!"\t\t\t\"code\": 47,\r\n"
/-- A line of the files. -/
def line292 : Str := c!"\t\t\"31\": [{\r\n"
/-- A line of the files. -/
def line293 : Str := c!"\t\t\"32\": [{\r\n"
/-- A line of the files. -/
def line294 : Str := c!"\t\t\"33\": [{\r\n"
/-- A line of the files. -/
def line295 : Str := c!"\t\t\"34\": [{\r\n"
/-- A line of the files. -/
def line296 : Str := c!"\t\t\"35\": [{\r\n"
/-- A line of the files. -/
def line297 : Str := c!"\t\t\"36\": [{\r\n"
/-- A line of the files. -/
def line298 : Str := c!"\t\t\"37\": [{\r\n"
/-- A line of the files. -/
def line299 : Str := c!"\t\t\"38\": [{\r\n"
/-- A line of the files. -/
def line300 : Str := c!"\t\t\"39\": [{\r\n"
/-- A line of the files. -/
def line301 : Str := c!"\t\t\"40\": [{\r\n"
/-- A line of the files. -/
def line302 : Str := c!"\t\t\"41\": [{\r\n"
/-- A line of the files. -/
def line303 : Str := c!"\t\t\"42\": [{\r\n"
/-- A line of the files. -/
def line304 : Str := c!"\t\t\"43\": [{\r\n"
/-- A line of the files. -/
def line305 : Str := c!"\t\t\"44\": [{\r\n"
/-- A line of the files. -/
def line306 : Str := c!"\t\t\t\"code\": 77,\r\n"
/-- A line of the files. -/
def line307 : Str := c!"\t\t\t\"code\": 78,\r\n"
/-- A line of the files. -/
def line308 : Str := c!"\t\t\t\"code\": 79,\r\n"
/-- A line of the files. -/
def line309 : Str := c!"\t\t\"45\": [{\r\n"
/-- A line of the files. -/
def line310 : Str := c!"\t\t\t\"code\": 86,\r\n"
/-- A line of the files. -/
def line311 : Str := c!"\t\t\"46\": [{\r\n"
/-- A line of the files. -/
def line312 : Str := c!"\t\t\t\"code\": 95,\r\n"
/-- A line of the files. -/
def line313 : Str := c!"\t\t\"47\": [{\r\n"
/-- A line of the files. -/
def line314 : Str := c!"\t\t\"48\": [{\r\n"
/-- A line of the files. -/
def line315 : Str := c!"\t\t\t\"code\": 101,\r\n"
/-- A line of the files. -/
def line316 : Str := c!"\t\t\"49\": [{\r\n"
/-- A line of the files. -/
def line317 : Str := c!"\t\t\t\"code\": 119,\r\n"
/-- A line of the files. -/
def line318 : Str := c!"\t\t\"50\": [{\r\n"
/-- A line of the files. -/
def line319 : Str := c!"\t\t\t\"code\": 127,\r\n"
/-- A line of the files. -/
def line320 : Str := c!"\t\t\t\"code\": 128,\r\n"
/-- A line of the files. -/
def line321 : Str := c!"\t\t\t\"code\": 129,\r\n"
/-- A line of the files. -/
def line322 : Str := c!"\t\t\t\"code\": 130,\r\n"
/-- A line of the files. -/
def line323 : Str := c!"\t\t\"51\": [{\r\n"
/-- A line of the files. -/
def line324 : Str := c!"\t\t\t\"code\": 131,\r\n"
/-- A line of the files. -/
def line325 : Str := c!"\t\t\"52\": [{\r\n"
/-- A line of the files. -/
def line326 : Str := c!"\t\t\t\"code\": 132,\r\n"
/-- A line of the files. -/
def line327 : Str := c!"\t\t\t\"code\": 133,\r\n"
/-- A line of the files. -/
def line328 : Str := c!"\t\t\"53\": [{\r\n"
/-- A line of the files. -/
def line329 : Str := c!"\t\t\t\"code\": 135,\r\n"
/-- A line of the files. -/
def line330 : Str := c!"\t\t\"54\": [{\r\n"
/-- A line of the files. -/
def line331 : Str := c!"\t\t\t\"code\": 202,\r\n"
/-- A line of the files. -/
def line332 : Str := c!"\t\t\"55\": [{\r\n"
/-- A line of the files. -/
def line333 : Str := c!"\t\t\t\"code\": 212,\r\n"
/-- A line of the files. -/
def line334 : Str := c!"\t\t}],\t\t\r\n"
/-- A line of the files. -/
def line335 : Str := c!"            \"decimal_to\": 99999999,\r\n"
/-- A line of the files. -/
def line336 : Str := c!"\t\t\t\"rest\": 0\t\r\n"
/-- A line of the files. -/
def line337 : Str := c!"{\n"
/-- A line of the files. -/
def line338 : Str := c!"    \"version\": \"1.0\",\n"
/-- A line of the files. -/
def line339 : Str := c!"    \"operations\": [\n"
/-- A line of the files. -/
def line340 : Str := c!"        \"SIN\",\n"
/-- A line of the files. -/
def line341 : Str := c!"        \"COS\",\n"
/-- A line of the files. -/
def line342 : Str := c!"        \"TAN\",\n"
/-- A line of the files. -/
def line343 : Str := c!"        \"ATAN\",\n"
/-- A line of the files. -/
def line344 : Str := c!"        \"SQRT\",\n"
/-- A line of the files. -/
def line345 : Str := c!"        \"ABS\",\n"
/-- A line of the files. -/
def line346 : Str := c!"        \"ROUND\",\n"
/-- A line of the files. -/
def line347 : Str := c!"        \"FIX\",\n"
/-- A line of the files. -/
def line348 : Str := c!"        \"FUP\",\n"
/-- A line of the files. -/
def line349 : Str := c!"        \"OR\",\n"
/-- A line of the files. -/
def line350 : Str := c!"        \"XOR\",\n"
/-- A line of the files. -/
def line351 : Str := c!"        \"AND\",\n"
/-- A line of the files. -/
def line352 : Str := c!"        \"BIN\",\n"
/-- A line of the files. -/
def line353 : Str := c!"        \"BCD\",\n"
/-- A line of the files. -/
def line354 : Str := c!"        \"IF\",\n"
/-- A line of the files. -/
def line355 : Str := c!"        \"WHILE\",\n"
/-- A line of the files. -/
def line356 : Str := c!"        \"DO\",\n"
/-- A line of the files. -/
def line357 : Str := c!"        \"END\",\n"
/-- A line of the files. -/
def line358 : Str := c!"        \"EQ\",\n"
/-- A line of the files. -/
def line359 : Str := c!"        \"NE\",\n"
/-- A line of the files. -/
def line360 : Str := c!"        \"GT\",\n"
/-- A line of the files. -/
def line361 : Str := c!"        \"GE\",\n"
/-- A line of the files. -/
def line362 : Str := c!"        \"LT\",\n"
/-- A line of the files. -/
def line363 : Str := c!"        \"LE\"\n"
/-- A line of the files. -/
def line364 : Str := c!"    ],\n"
/-- A line of the files. -/
def line365 : Str := c!"    \"imperial\": {\n"
/-- A line of the files. -/
def line366 : Str := c!"        \",C\": {\n"
/-- A line of the files. -/
def line367 : Str := c!"            \"word\": \",C\",\n"
/-- A line of the files. -/
def line368 : Str := c!"            \"range_from\": -999,\n"
/-- A line of the files. -/
def line369 : Str := c!"            \"range_to\": 999,\n"
/-- A line of the files. -/
def line370 : Str := c!"            \"decimal_from\": 0,\n"
/-- A line of the files. -/
def line371 : Str := c!"            \"decimal_to\": 9999,\n"
/-- A line of the files. -/
def line372 : Str := c!"            \"unique\": false,\n"
/-- A line of the files. -/
def line373 : Str := c!"            \"type\": \"misc\"\n"
/-- A line of the files. -/
def line374 : Str := c!"        },\n"
/-- A line of the files. -/
def line375 : Str := c!"        \",R\": {\n"
/-- A line of the files. -/
def line376 : Str := c!"            \"word\": \",R\",\n"
/-- A line of the files. -/
def line377 : Str := c!"        \":\": {\n"
/-- A line of the files. -/
def line378 : Str := c!"            \"word\": \":\",\n"
/-- A line of the files. -/
def line379 : Str := c!"            \"range_from\": 0,\n"
/-- A line of the files. -/
def line380 : Str := c!"            \"range_to\": 9999,\n"
/-- A line of the files. -/
def line381 : Str := c!"            \"decimal_to\": 0,\n"
/-- A line of the files. -/
def line382 : Str := c!"            \"type\": \"numbering\"\n"
/-- A line of the files. -/
def line383 : Str := c!"        \"#\": {\n"
/-- A line of the files. -/
def line384 : Str := c!"            \"word\": \"#\",\n"
/-- A line of the files. -/
def line385 : Str := c!"            \"range_to\": 99999,\n"
/-- A line of the files. -/
def line386 : Str := c!"            \"type\": \"macro\"\n"
/-- A line of the files. -/
def line387 : Str := c!"        \"=\": {\n"
/-- A line of the files. -/
def line388 : Str := c!"            \"word\": \"=\",\n"
/-- A line of the files. -/
def line389 : Str := c!"            \"range_from\": -9999,\n"
/-- A line of the files. -/
def line390 : Str := c!"            \"type\": \"calc\"\n"
/-- A line of the files. -/
def line391 : Str := c!"        \"+\": {\n"
/-- A line of the files. -/
def line392 : Str := c!"            \"word\": \"+\",\n"
/-- A line of the files. -/
def line393 : Str := c!"        \"-\": {\n"
/-- A line of the files. -/
def line394 : Str := c!"            \"word\": \"-\",\n"
/-- A line of the files. -/
def line395 : Str := c!"        \"*\": {\n"
/-- A line of the files. -/
def line396 : Str := c!"            \"word\": \"*\",\n"
/-- A line of the files. -/
def line397 : Str := c!"        \"/\": {\n"
/-- A line of the files. -/
def line398 : Str := c!"            \"word\": \"/\",\n"
/-- A line of the files. -/
def line399 : Str := c!"        \"A\": {\n"
/-- A line of the files. -/
def line400 : Str := c!"            \"word\": \"A\",\n"
/-- A line of the files. -/
def line401 : Str := c!"            \"unique\": true,\n"
/-- A line of the files. -/
def line402 : Str := c!"            \"type\": \"angle\"\n"
/-- A line of the files. -/
def line403 : Str := c!"        \"A2\": {\n"
/-- A line of the files. -/
def line404 : Str := c!"            \"word\": \"A2\",\n"
/-- A line of the files. -/
def line405 : Str := c!"            \"type\": \"assignable\"\n"
/-- A line of the files. -/
def line406 : Str := c!"        \"B\": {\n"
/-- A line of the files. -/
def line407 : Str := c!"            \"word\": \"B\",\n"
/-- A line of the files. -/
def line408 : Str := c!"        \"B2\": {\n"
/-- A line of the files. -/
def line409 : Str := c!"            \"word\": \"B2\",\n"
/-- A line of the files. -/
def line410 : Str := c!"        \"C\": {\n"
/-- A line of the files. -/
def line411 : Str := c!"            \"word\": \"C\",\n"
/-- A line of the files. -/
def line412 : Str := c!"        \"C2\": {\n"
/-- A line of the files. -/
def line413 : Str := c!"            \"word\": \"C2\",\n"
/-- A line of the files. -/
def line414 : Str := c!"        \"D\": {\n"
/-- A line of the files. -/
def line415 : Str := c!"            \"word\": \"D\",\n"
/-- A line of the files. -/
def line416 : Str := c!"        \"F\": {\n"
/-- A line of the files. -/
def line417 : Str := c!"            \"word\": \"F\",\n"
/-- A line of the files. -/
def line418 : Str := c!"            \"type\": \"feed\"\n"
/-- A line of the files. -/
def line419 : Str := c!"        \"G\": {\n"
/-- A line of the files. -/
def line420 : Str := c!"            \"word\": \"G\",\n"
/-- A line of the files. -/
def line421 : Str := c!"            \"decimal_to\": 9,\n"
/-- A line of the files. -/
def line422 : Str := c!"            \"type\": \"code\"\n"
/-- A line of the files. -/
def line423 : Str := c!"        \"H\": {\n"
/-- A line of the files. -/
def line424 : Str := c!"            \"word\": \"H\",\n"
/-- A line of the files. -/
def line425 : Str := c!"        \"I\": {\n"
/-- A line of the files. -/
def line426 : Str := c!"            \"word\": \"I\",\n"
/-- A line of the files. -/
def line427 : Str := c!"            \"type\": \"length\"\n"
/-- A line of the files. -/
def line428 : Str := c!"        \"J\": {\n"
/-- A line of the files. -/
def line429 : Str := c!"            \"word\": \"J\",\n"
/-- A line of the files. -/
def line430 : Str := c!"        \"K\": {\n"
/-- A line of the files. -/
def line431 : Str := c!"            \"word\": \"K\",\n"
/-- A line of the files. -/
def line432 : Str := c!"        \"L\": {\n"
/-- A line of the files. -/
def line433 : Str := c!"            \"word\": \"L\",\n"
/-- A line of the files. -/
def line434 : Str := c!"        \"M\": {\n"
/-- A line of the files. -/
def line435 : Str := c!"            \"word\": \"M\",\n"
/-- A line of the files. -/
def line436 : Str := c!"        \"N\": {\n"
/-- A line of the files. -/
def line437 : Str := c!"            \"word\": \"N\",\n"
/-- A line of the files. -/
def line438 : Str := c!"            \"range_from\": 1,\n"
/-- A line of the files. -/
def line439 : Str := c!"        \"P\": {\n"
/-- A line of the files. -/
def line440 : Str := c!"            \"word\": \"P\",\n"
/-- A line of the files. -/
def line441 : Str := c!"            \"decimal_to\": 999,\n"
/-- A line of the files. -/
def line442 : Str := c!"        \"Q\": {\n"
/-- A line of the files. -/
def line443 : Str := c!"            \"word\": \"Q\",\n"
/-- A line of the files. -/
def line444 : Str := c!"        \"R\": {\n"
/-- A line of the files. -/
def line445 : Str := c!"            \"word\": \"R\",\n"
/-- A line of the files. -/
def line446 : Str := c!"        \"S\": {\n"
/-- A line of the files. -/
def line447 : Str := c!"            \"word\": \"S\",\n"
/-- A line of the files. -/
def line448 : Str := c!"        \"S1\": {\n"
/-- A line of the files. -/
def line449 : Str := c!"            \"word\": \"S1\",\n"
/-- A line of the files. -/
def line450 : Str := c!"        \"S2\": {\n"
/-- A line of the files. -/
def line451 : Str := c!"            \"word\": \"S2\",\n"
/-- A line of the files. -/
def line452 : Str := c!"        \"S3\": {\n"
/-- A line of the files. -/
def line453 : Str := c!"            \"word\": \"S3\",\n"
/-- A line of the files. -/
def line454 : Str := c!"        \"T\": {\n"
/-- A line of the files. -/
def line455 : Str := c!"            \"word\": \"T\",\n"
/-- A line of the files. -/
def line456 : Str := c!"        \"X\": {\n"
/-- A line of the files. -/
def line457 : Str := c!"            \"word\": \"X\",\n"
/-- A line of the files. -/
def line458 : Str := c!"        \"Y\": {\n"
/-- A line of the files. -/
def line459 : Str := c!"            \"word\": \"Y\",\n"
/-- A line of the files. -/
def line460 : Str := c!"        \"Z\": {\n"
/-- A line of the files. -/
def line461 : Str := c!"            \"word\": \"Z\",\n"
/-- A line of the files. -/
def line462 : Str := c!"        \"U\": {\n"
/-- A line of the files. -/
def line463 : Str := c!"            \"word\": \"U\",\n"
/-- A line of the files. -/
def line464 : Str := c!"        \"V\": {\n"
/-- A line of the files. -/
def line465 : Str := c!"            \"word\": \"V\",\n"
/-- A line of the files. -/
def line466 : Str := c!"        \"W\": {\n"
/-- A line of the files. -/
def line467 : Str := c!"            \"word\": \"W\",\n"
/-- A line of the files. -/
def line468 : Str := c!"        \"GOTO\": {\n"
/-- A line of the files. -/
def line469 : Str := c!"            \"word\": \"GOTO\",\n"
/-- A line of the files. -/
def line470 : Str := c!"        }\n"
/-- A line of the files. -/
def line471 : Str := c!"    },\n"
/-- A line of the files. -/
def line472 : Str := c!"    \"metric\": {\n"
/-- A line of the files. -/
def line473 : Str := c!"            \"range_from\": -99999,\n"
/-- A line of the files. -/
def line474 : Str := c!"            \"decimal_to\": 99999,\n"
/-- A line of the files. -/
def line475 : Str := c!"    }\n"
/-- A line of the files. -/
def line476 : Str := c!"\t\t\t\"code\": 100,\r\n"
/-- A line of the files. -/
def line477 : Str := c!"\t\t\t\"code\": 102,\r\n"
/-- A line of the files. -/
def line478 : Str := c!"\t\t\t\"code\": 103,\r\n"
/-- A line of the files. -/
def line479 : Str := c!"\t\t\t\"code\": 187,\r\n"
/-- A line of the files. -/
def line480 : Str := c!"\t\t\t\"code\": 195,\r\n"
/-- A line of the files. -/
def line481 : Str := c!"\t\t\t\"code\": 196,\r\n"
/-- A line of the files. -/
def line482 : Str := c!"\t\t\t\"code\": 199,\r\n"
/-- A line of the files. -/
def line483 : Str := c!"\t\t\t\"code\": 200,\r\n"
/-- A line of the files. -/
def line484 : Str := c!"\t\t\t\"code\": 105,\r\n"
/-- A line of the files. -/
def line485 : Str := c!"\t\t\t\"code\": 184,\r\n"
/-- A line of the files. -/
def line486 : Str := c!"\t\t\t\"code\": 241,\r\n"
/-- A line of the files. -/
def line487 : Str := c!"\t\t\t\"code\": 242,\r\n"
/-- A line of the files. -/
def line488 : Str := c!"\t\t\t\"code\": 243,\r\n"
/-- A line of the files. -/
def line489 : Str := c!"\t\t\t\"code\": 245,\r\n"
/-- A line of the files. -/
def line490 : Str := c!"\t\t\t\"code\": 246,\r\n"
/-- A line of the files. -/
def line491 : Str := c!"\t\t\t\"code\": 247,\r\n"
/-- A line of the files. -/
def line492 : Str := c!"\t\t\t\"code\": 248,\r\n"
/-- A line of the files. -/
def line493 : Str := c!"\t\t\t\"code\": 249,\r\n"
/-- A line of the files. -/
def line494 : Str := c!"\t\t\t\"code\": 186,\r\n"
/-- A line of the files. -/
def line495 : Str := c!"\t\t\t\"code\": 110,\r\n"
/-- A line of the files. -/
def line496 : Str := c!"\t\t\t\"code\": 111,\r\n"
/-- A line of the files. -/
def line497 : Str := c!"\t\t\t\"code\": 114,\r\n"
/-- A line of the files. -/
def line498 : Str := c!"\t\t\t\"code\": 115,\r\n"
/-- A line of the files. -/
def line499 : Str := c!"\t\t\t\"code\": 116,\r\n"
/-- A line of the files. -/
def line500 : Str := c!"\t\t\t\"code\": 117,\r\n"
/-- A line of the files. -/
def line501 : Str := c!"\t\t\t\"code\": 118,\r\n"
/-- A line of the files. -/
def line502 : Str := c!"\t\t\t\"code\": 120,\r\n"
/-- A line of the files. -/
def line503 : Str := c!"\t\t\t\"code\": 121,\r\n"
/-- A line of the files. -/
def line504 : Str := c!"\t\t\t\"code\": 122,\r\n"
/-- A line of the files. -/
def line505 : Str := c!"\t\t\t\"code\": 123,\r\n"
/-- A line of the files. -/
def line506 : Str := c!"\t\t\t\"code\": 124,\r\n"
/-- A line of the files. -/
def line507 : Str := c!"\t\t\t\"code\": 125,\r\n"
/-- A line of the files. -/
def line508 : Str := c!"\t\t\t\"code\": 126,\r\n"
/-- A line of the files. -/
def line509 : Str := c!"\t\t\t\"rest\": 0\t\t\r\n"
/-- A line of the files. -/
def line510 : Str := c!"\t\t\t\"code\": 154,\r\n"
/-- A line of the files. -/
def line511 : Str := c!"\t\t\t\"code\": 104,\r\n"
/-- A line of the files. -/
def line512 : Str := c!"\t\t\t\"code\": 109,\r\n"
/-- A line of the files. -/
def line513 : Str := c!"\t\t\t\"code\": 134,\r\n"
/-- A line of the files. -/
def line514 : Str := c!"\t\t\t\"code\": 143,\r\n"
/-- A line of the files. -/
def line515 : Str := c!"\t\t\t\"code\": 144,\r\n"
/-- A line of the files. -/
def line516 : Str := c!"\t\t\t\"code\": 145,\r\n"
/-- A line of the files. -/
def line517 : Str := c!"\t\t\t\"code\": 155,\r\n"
/-- A line of the files. -/
def line518 : Str := c!"\t\t\t\"code\": 136,\r\n"
/-- A line of the files. -/
def line519 : Str := c!"\t\t\t\"code\": 150,\r\n"
/-- A line of the files. -/
def line520 : Str := c!"\t\t\t\"code\": 174,\r\n"
/-- A line of the files. -/
def line521 : Str := c!"\t\t\t\"code\": 253,\r\n"
/-- A line of the files. -/
def line522 : Str := c!"\t\t\t\"code\": 266,\r\n"
/-- A line of the files. -/
def line523 : Str := c!"\t\t\t\"code\": 141,\r\n"
/-- A line of the files. -/
def line524 : Str := c!"\t\t\t\"code\": 234,\r\n"
/-- A line of the files. -/
def line525 : Str := c!"\t\t\t\"code\": 254,\r\n"
/-- A line of the files. -/
def line526 : Str := c!"\t\t\t\"code\": 255,\r\n"
/-- A line of the files. -/
def line527 : Str := c!"\t\t\t\"code\": 138,\r\n"
/-- A line of the files. -/
def line528 : Str := c!"\t\t\t\"code\": 139,\r\n"
/-- A line of the files. -/
def line529 : Str := c!"\t\t\t\"code\": 158,\r\n"
/-- A line of the files. -/
def line530 : Str := c!"\t\t\t\"code\": 159,\r\n"
/-- A line of the files. -/
def line531 : Str := c!"\t\t\t\"code\": 160,\r\n"
/-- A line of the files. -/
def line532 : Str := c!"\t\t\t\"code\": 161,\r\n"
/-- A line of the files. -/
def line533 : Str := c!"\t\t\t\"code\": 162,\r\n"
/-- A line of the files. -/
def line534 : Str := c!"\t\t\t\"code\": 163,\r\n"

/-- The text of conf/fanuc_lathe_system_a/grammar.json. -/
def fanucLatheSystemAWords : Str := List.flatten
  [line0, line1, line2, line3, line4, line5, line6, line7, line8, line9, line10, line11, line12, line13, line14, line15,
   line16, line12, line13, line14, line17, line18, line19, line20, line21, line22, line23, line24, line25, line26, line27, line28,
   line29, line30, line31, line32, line33, line34, line35, line36, line37, line38, line39, line31, line32, line33, line34, line35,
   line36, line37, line40, line41, line42, line43, line33, line44, line35, line45, line37, line46, line47, line42, line48, line33,
   line44, line35, line49, line37, line50, line51, line52, line43, line33, line34, line35, line53, line37, line54, line55, line52,
   line43, line33, line34, line35, line53, line37, line56, line57, line52, line43, line33, line34, line35, line53, line37, line58,
   line59, line52, line43, line33, line34, line35, line53, line37, line60, line61, line52, line43, line33, line34, line35, line53,
   line37, line62, line63, line52, line43, line33, line34, line64, line65, line37, line66, line67, line52, line43, line33, line34,
   line64, line68, line37, line69, line70, line52, line43, line33, line34, line64, line65, line37, line71, line72, line52, line43,
   line33, line34, line64, line68, line37, line73, line74, line52, line43, line33, line34, line64, line65, line37, line75, line76,
   line52, line43, line33, line34, line64, line68, line37, line77, line78, line31, line32, line33, line79, line35, line36, line37,
   line80, line81, line42, line43, line33, line34, line35, line82, line37, line83, line84, line42, line32, line33, line85, line35,
   line86, line37, line87, line88, line31, line32, line33, line79, line35, line36, line37, line89, line90, line52, line43, line33,
   line34, line64, line91, line37, line92, line93, line52, line43, line33, line34, line64, line91, line37, line94, line95, line52,
   line43, line33, line34, line64, line91, line37, line96, line97, line52, line43, line33, line44, line35, line36, line37, line98,
   line99, line42, line32, line33, line44, line35, line86, line37, line100, line101, line102, line48, line33, line44, line35, line45,
   line37, line103, line104, line42, line48, line33, line79, line35, line36, line37, line105, line106, line31, line32, line33, line34,
   line35, line36, line37, line107, line108, line52, line43, line33, line34, line64, line91, line37, line109, line110, line102, line48,
   line33, line44, line35, line36, line37, line111, line112, line42, line48, line33, line44, line35, line68, line37, line113, line114,
   line42, line48, line33, line44, line35, line68, line37, line115, line116, line42, line48, line33, line44, line35, line68, line37,
   line117, line118, line42, line43, line33, line34, line35, line36, line37, line119, line120, line52, line43, line33, line34, line64,
   line91, line37, line121, line122, line52, line43, line33, line34, line64, line91, line37, line123, line124, line52, line43, line33,
   line34, line64, line91, line37, line125, line126, line52, line43, line33, line34, line64, line91, line37, line127, line128, line52,
   line43, line33, line34, line64, line91, line37, line129, line130, line52, line43, line33, line34, line64, line91, line37, line131,
   line132, line102, line48, line33, line44, line35, line36, line133, line134, line135, line29, line30, line52, line43, line33, line79,
   line35, line36, line37, line38, line39, line52, line43, line33, line79, line35, line36, line37, line40, line41, line42, line43,
   line33, line44, line35, line45, line37, line46, line47, line42, line48, line33, line44, line35, line49, line37, line50, line51,
   line136, line48, line33, line34, line35, line53, line37, line54, line55, line136, line48, line33, line34, line35, line53, line37,
   line56, line57, line136, line48, line33, line34, line35, line53, line37, line58, line59, line136, line48, line33, line34, line35,
   line53, line37, line60, line61, line52, line43, line33, line34, line35, line53, line37, line62, line63, line136, line48, line33,
   line34, line64, line65, line37, line66, line67, line136, line48, line33, line34, line64, line68, line37, line69, line70, line136,
   line48, line33, line34, line64, line65, line37, line71, line72, line136, line48, line33, line34, line64, line68, line37, line73,
   line74, line136, line48, line33, line34, line64, line65, line37, line75, line76, line136, line48, line33, line34, line64, line68,
   line37, line77, line78, line31, line32, line33, line79, line35, line36, line37, line80, line81, line42, line48, line33, line137,
   line35, line82, line37, line83, line84, line42, line32, line33, line85, line35, line86, line37, line87, line88, line31, line32,
   line33, line79, line35, line36, line37, line89, line90, line136, line48, line33, line34, line64, line91, line37, line92, line93,
   line136, line48, line33, line34, line64, line91, line37, line94, line95, line136, line48, line33, line34, line64, line91, line37,
   line96, line97, line52, line43, line33, line44, line35, line36, line37, line98, line99, line42, line32, line33, line44, line35,
   line86, line37, line100, line101, line102, line48, line33, line44, line35, line45, line37, line103, line104, line42, line48, line33,
   line79, line35, line36, line37, line105, line106, line52, line43, line33, line79, line35, line36, line37, line107, line108, line136,
   line48, line33, line34, line64, line91, line37, line109, line110, line102, line48, line33, line44, line35, line36, line37, line111,
   line112, line42, line48, line33, line44, line35, line68, line37, line113, line114, line42, line48, line33, line44, line35, line68,
   line37, line115, line116, line42, line48, line33, line44, line35, line68, line37, line117, line118, line42, line43, line33, line44,
   line35, line36, line37, line119, line120, line136, line48, line33, line34, line64, line91, line37, line121, line122, line136, line48,
   line33, line34, line64, line91, line37, line123, line124, line136, line48, line33, line34, line64, line91, line37, line125, line126,
   line136, line48, line33, line34, line64, line91, line37, line127, line128, line136, line48, line33, line34, line64, line91, line37,
   line129, line130, line136, line48, line33, line34, line64, line91, line37, line131, line132, line102, line48, line33, line44, line35,
   line36, line133, line138, line139]

/-- The text of conf/fanuc_lathe_system_a/gcode_groups.json. -/
def fanucLatheSystemACodeGroups : Str := List.flatten
  [line0, line140, line141, line142, line143, line144, line145, line146, line144, line145, line146, line147, line145, line146, line148, line145,
   line149, line144, line145, line149, line147, line145, line150, line144, line145, line151, line144, line145, line152, line144, line145, line152,
   line153, line145, line152, line154, line145, line155, line144, line145, line156, line144, line145, line157, line144, line145, line158, line144,
   line145, line159, line144, line145, line159, line147, line145, line160, line144, line145, line160, line161, line145, line162, line144, line145,
   line162, line163, line145, line164, line144, line145, line165, line144, line145, line165, line147, line145, line166, line144, line145, line167,
   line144, line145, line168, line144, line145, line169, line144, line145, line170, line144, line145, line170, line147, line145, line170, line171,
   line145, line172, line144, line145, line173, line144, line145, line174, line144, line145, line175, line144, line145, line176, line147, line145,
   line177, line178, line179, line180, line181, line144, line145, line182, line144, line145, line183, line144, line145, line184, line144, line145,
   line183, line171, line145, line183, line163, line145, line183, line148, line145, line184, line171, line145, line184, line163, line145, line184,
   line148, line145, line185, line171, line145, line186, line144, line145, line187, line144, line145, line188, line144, line145, line189, line144,
   line190, line191, line144, line145, line191, line147, line145, line191, line171, line145, line192, line144, line145, line193, line144, line145,
   line194, line144, line145, line195, line144, line145, line196, line178, line179, line197, line198, line144, line145, line199, line144, line179,
   line200, line201, line144, line145, line202, line144, line179, line203, line204, line144, line145, line205, line144, line145, line206, line144,
   line179, line207, line208, line144, line145, line209, line144, line179, line210, line211, line144, line145, line212, line144, line145, line212,
   line171, line145, line212, line163, line145, line212, line148, line145, line212, line213, line145, line212, line153, line145, line214, line144,
   line145, line214, line171, line145, line214, line148, line145, line214, line213, line145, line214, line153, line179, line215, line216, line144,
   line145, line217, line144, line179, line218, line219, line144, line145, line220, line144, line179, line221, line222, line144, line145, line223,
   line144, line145, line224, line144, line145, line225, line144, line145, line225, line147, line145, line225, line213, line145, line225, line153,
   line145, line226, line144, line145, line226, line171, line145, line227, line144, line145, line228, line144, line145, line228, line213, line145,
   line228, line153, line145, line229, line178, line145, line230, line144, line179, line231, line232, line144, line145, line232, line147, line145,
   line233, line144, line179, line234, line235, line144, line145, line235, line147, line145, line236, line144, line145, line237, line144, line145,
   line238, line144, line145, line239, line144, line145, line240, line144, line179, line241, line242, line144, line145, line243, line144, line145,
   line244, line144, line145, line245, line144, line179, line246, line247, line144, line145, line248, line144, line145, line249, line144, line179,
   line250, line201, line147, line145, line201, line171, line145, line202, line147, line179, line251, line162, line171, line145, line252, line171,
   line145, line253, line144, line145, line254, line144, line179, line255, line256, line147, line145, line257, line147, line145, line258, line144,
   line145, line259, line144, line179, line260, line162, line147, line145, line252, line147, line179, line261, line262, line144, line145, line262,
   line147, line145, line262, line148, line145, line262, line213, line145, line262, line263, line145, line264, line144, line145, line264, line263,
   line145, line265, line144, line145, line265, line147, line179, line266, line267, line144, line145, line268, line144, line179, line269, line222,
   line213, line145, line223, line213, line179, line270, line222, line161, line145, line223, line161, line271, line272, line273]

/-- The text of conf/fanuc_lathe_system_a/mcode_groups.json. -/
def fanucLatheSystemAFunctionGroups : Str := List.flatten
  [line0, line1, line141, line142, line181, line144, line145, line182, line144, line145, line183, line144, line145, line159, line144, line145,
   line185, line144, line179, line180, line184, line144, line145, line143, line144, line145, line146, line144, line145, line256, line144, line145,
   line274, line144, line179, line197, line149, line144, line145, line150, line144, line145, line151, line144, line145, line257, line144, line145,
   line274, line144, line145, line267, line144, line145, line268, line144, line179, line275, line152, line144, line145, line155, line144, line179,
   line200, line209, line144, line145, line219, line144, line179, line203, line276, line144, line145, line265, line144, line179, line207, line205,
   line144, line145, line206, line144, line179, line210, line247, line144, line145, line248, line144, line179, line215, line198, line144, line145,
   line199, line144, line179, line218, line192, line144, line145, line193, line144, line179, line221, line249, line144, line179, line277, line208,
   line144, line145, line209, line144, line179, line231, line220, line144, line145, line278, line144, line179, line279, line216, line144, line145,
   line217, line144, line179, line234, line156, line144, line145, line157, line144, line179, line241, line280, line144, line179, line246, line281,
   line144, line179, line250, line219, line144, line179, line282, line160, line144, line145, line186, line144, line145, line283, line144, line179,
   line284, line187, line144, line179, line251, line158, line144, line179, line255, line188, line144, line179, line260, line189, line144, line179,
   line261, line191, line144, line179, line266, line192, line144, line179, line285, line193, line144, line179, line286, line211, line144, line179,
   line269, line212, line144, line145, line262, line144, line179, line270, line214, line144, line179, line287, line264, line144, line145, line288,
   line144, line179, line289, line290, line144, line145, line291, line144, line179, line292, line276, line144, line145, line265, line144, line179,
   line293, line162, line144, line145, line252, line144, line179, line294, line164, line144, line145, line165, line144, line145, line235, line144,
   line145, line236, line144, line145, line237, line144, line145, line238, line144, line179, line295, line239, line144, line179, line296, line240,
   line144, line179, line297, line166, line144, line179, line298, line242, line144, line179, line299, line243, line144, line179, line300, line244,
   line144, line179, line301, line245, line144, line179, line302, line167, line144, line179, line303, line232, line144, line145, line233, line144,
   line179, line304, line201, line144, line145, line202, line144, line179, line305, line168, line144, line145, line169, line144, line145, line170,
   line144, line145, line172, line144, line145, line173, line144, line145, line174, line144, line145, line175, line144, line145, line306, line144,
   line145, line307, line144, line145, line308, line144, line145, line222, line144, line145, line223, line144, line145, line224, line144, line179,
   line309, line225, line144, line145, line226, line144, line145, line227, line144, line145, line310, line144, line145, line228, line144, line145,
   line229, line144, line145, line230, line144, line145, line194, line144, line145, line176, line144, line145, line195, line144, line145, line204,
   line144, line179, line311, line196, line144, line145, line312, line144, line145, line198, line144, line145, line199, line144, line179, line313,
   line205, line144, line145, line206, line144, line179, line314, line315, line144, line179, line316, line317, line144, line179, line318, line319,
   line144, line145, line320, line144, line145, line321, line144, line145, line322, line144, line179, line323, line324, line144, line179, line325,
   line326, line144, line145, line327, line144, line179, line328, line329, line144, line179, line330, line331, line144, line179, line332, line333,
   line144, line271, line272, line273]

/-- The text of conf/fanuc_lathe_system_b/gcode_groups.json. -/
def fanucLatheSystemBCodeGroups : Str := List.flatten
  [line0, line140, line141, line142, line143, line144, line145, line146, line144, line145, line146, line147, line145, line146, line148, line145,
   line149, line144, line145, line149, line147, line145, line150, line144, line145, line151, line144, line145, line152, line144, line145, line152,
   line153, line145, line152, line154, line145, line155, line144, line145, line156, line144, line145, line157, line144, line145, line158, line144,
   line145, line159, line144, line145, line159, line147, line145, line160, line144, line145, line160, line161, line145, line164, line144, line145,
   line165, line144, line145, line165, line147, line145, line166, line144, line145, line167, line144, line145, line168, line144, line145, line169,
   line144, line145, line170, line144, line145, line170, line147, line145, line170, line171, line145, line172, line144, line145, line173, line144,
   line145, line174, line144, line145, line175, line144, line145, line176, line147, line145, line195, line144, line145, line195, line147, line145,
   line177, line178, line179, line180, line181, line144, line145, line182, line144, line145, line183, line144, line145, line184, line144, line145,
   line183, line171, line145, line183, line163, line145, line183, line148, line145, line184, line171, line145, line184, line163, line145, line184,
   line148, line145, line185, line171, line145, line283, line144, line145, line187, line144, line145, line188, line144, line145, line189, line144,
   line190, line191, line144, line145, line191, line147, line145, line191, line171, line145, line192, line144, line145, line193, line144, line145,
   line306, line144, line145, line307, line144, line145, line308, line178, line179, line197, line198, line144, line145, line199, line144, line179,
   line275, line194, line144, line145, line176, line144, line179, line200, line201, line144, line145, line202, line144, line179, line203, line204,
   line144, line145, line196, line144, line145, line312, line144, line179, line207, line208, line144, line145, line209, line144, line179, line210,
   line211, line144, line145, line212, line144, line145, line212, line171, line145, line212, line163, line145, line212, line148, line145, line212,
   line213, line145, line212, line153, line145, line214, line144, line145, line214, line171, line145, line214, line148, line145, line214, line213,
   line145, line214, line153, line179, line215, line216, line144, line145, line217, line144, line179, line218, line219, line144, line145, line220,
   line144, line179, line221, line222, line144, line145, line223, line144, line145, line224, line144, line145, line225, line144, line145, line225,
   line147, line145, line225, line213, line145, line225, line153, line145, line226, line144, line145, line226, line171, line145, line227, line144,
   line145, line228, line144, line145, line228, line213, line145, line228, line153, line145, line229, line178, line145, line230, line144, line179,
   line277, line205, line144, line145, line206, line144, line334, line231, line232, line144, line145, line232, line147, line145, line233, line144,
   line179, line234, line235, line144, line145, line235, line147, line145, line236, line144, line145, line237, line144, line145, line238, line144,
   line145, line239, line144, line145, line240, line144, line179, line241, line242, line144, line145, line243, line144, line145, line244, line144,
   line145, line245, line144, line179, line246, line247, line144, line145, line248, line144, line145, line249, line144, line179, line250, line201,
   line147, line145, line201, line171, line145, line202, line147, line179, line282, line162, line144, line145, line252, line144, line179, line251,
   line162, line171, line145, line252, line171, line145, line253, line144, line145, line254, line144, line179, line255, line256, line147, line145,
   line257, line147, line145, line258, line144, line145, line259, line144, line179, line260, line162, line147, line145, line252, line147, line179,
   line261, line262, line144, line145, line262, line147, line145, line262, line148, line145, line262, line213, line145, line262, line263, line145,
   line264, line144, line145, line264, line263, line145, line265, line144, line145, line265, line147, line179, line266, line267, line144, line145,
   line268, line144, line179, line269, line222, line213, line145, line223, line213, line179, line270, line222, line161, line145, line223, line161,
   line271, line272, line273]

/-- The text of conf/fanuc_lathe_system_c/gcode_groups.json. -/
def fanucLatheSystemCCodeGroups : Str := List.flatten
  [line0, line140, line141, line142, line143, line144, line145, line146, line144, line145, line146, line147, line145, line146, line148, line145,
   line149, line144, line145, line149, line147, line145, line150, line144, line145, line151, line144, line145, line152, line144, line145, line152,
   line153, line145, line152, line154, line145, line155, line144, line145, line156, line144, line145, line157, line144, line145, line158, line144,
   line145, line159, line144, line145, line159, line147, line145, line160, line144, line145, line160, line161, line145, line164, line144, line145,
   line165, line144, line145, line165, line147, line145, line166, line144, line145, line167, line144, line145, line306, line144, line145, line307,
   line144, line145, line170, line144, line145, line170, line147, line145, line170, line171, line145, line172, line144, line145, line173, line144,
   line145, line174, line144, line145, line175, line144, line145, line306, line144, line145, line307, line144, line145, line176, line147, line145,
   line195, line144, line145, line195, line147, line145, line177, line178, line179, line180, line181, line144, line145, line182, line144, line145,
   line183, line144, line145, line184, line144, line145, line183, line171, line145, line183, line163, line145, line183, line148, line145, line184,
   line171, line145, line184, line163, line145, line184, line148, line145, line185, line171, line145, line208, line144, line145, line209, line144,
   line145, line278, line144, line145, line283, line144, line145, line187, line144, line145, line188, line144, line145, line189, line144, line190,
   line191, line144, line145, line191, line147, line145, line191, line171, line145, line192, line144, line145, line193, line178, line179, line197,
   line198, line144, line145, line199, line144, line179, line275, line194, line144, line145, line176, line144, line179, line200, line201, line144,
   line145, line202, line144, line179, line203, line204, line144, line145, line196, line144, line145, line312, line144, line179, line207, line168,
   line144, line145, line169, line144, line179, line210, line211, line144, line145, line212, line144, line145, line212, line171, line145, line212,
   line163, line145, line212, line148, line145, line212, line213, line145, line212, line153, line145, line214, line144, line145, line214, line171,
   line145, line214, line148, line145, line214, line213, line145, line214, line153, line179, line215, line216, line144, line145, line217, line144,
   line179, line218, line219, line144, line145, line220, line144, line179, line221, line222, line144, line145, line223, line144, line145, line224,
   line144, line145, line225, line144, line145, line225, line147, line145, line225, line213, line145, line225, line153, line145, line226, line144,
   line145, line226, line171, line145, line227, line144, line145, line228, line144, line145, line228, line213, line145, line228, line153, line145,
   line229, line178, line145, line230, line144, line179, line277, line205, line144, line145, line206, line144, line334, line231, line232, line144,
   line145, line232, line147, line145, line233, line144, line179, line234, line235, line144, line145, line235, line147, line145, line236, line144,
   line145, line237, line144, line145, line238, line144, line145, line239, line144, line145, line240, line144, line179, line241, line242, line144,
   line145, line243, line144, line145, line244, line144, line145, line245, line144, line179, line246, line247, line144, line145, line248, line144,
   line145, line249, line144, line179, line250, line201, line147, line145, line201, line171, line145, line202, line147, line179, line282, line162,
   line144, line145, line252, line144, line179, line251, line162, line171, line145, line252, line171, line145, line253, line144, line145, line254,
   line144, line179, line255, line256, line147, line145, line257, line147, line145, line258, line144, line145, line259, line144, line179, line260,
   line162, line147, line145, line252, line147, line179, line261, line262, line144, line145, line262, line147, line145, line262, line148, line145,
   line262, line213, line145, line262, line263, line145, line264, line144, line145, line264, line263, line145, line265, line144, line145, line265,
   line147, line179, line266, line267, line144, line145, line268, line144, line179, line269, line222, line213, line145, line223, line213, line179,
   line270, line222, line161, line145, line223, line161, line271, line272, line273]

/-- The text of conf/fanuc_mill/grammar.json. -/
def fanucMillWords : Str := List.flatten
  [line0, line1, line2, line3, line4, line5, line6, line7, line8, line9, line10, line11, line12, line13, line14, line15,
   line16, line12, line13, line14, line17, line18, line19, line20, line21, line22, line23, line24, line25, line26, line27, line28,
   line29, line30, line31, line32, line33, line34, line35, line36, line37, line38, line39, line31, line32, line33, line34, line35,
   line36, line37, line40, line41, line42, line43, line33, line44, line35, line45, line37, line46, line47, line42, line48, line33,
   line44, line35, line49, line37, line50, line51, line52, line43, line33, line34, line35, line53, line37, line54, line55, line52,
   line43, line33, line34, line35, line53, line37, line56, line57, line52, line43, line33, line34, line35, line53, line37, line58,
   line59, line52, line43, line33, line34, line35, line53, line37, line60, line61, line52, line43, line33, line34, line35, line53,
   line37, line62, line63, line52, line43, line33, line34, line64, line65, line37, line66, line67, line52, line43, line33, line34,
   line64, line68, line37, line69, line70, line52, line43, line33, line34, line64, line65, line37, line71, line72, line52, line43,
   line33, line34, line64, line68, line37, line73, line74, line52, line43, line33, line34, line64, line65, line37, line75, line76,
   line52, line43, line33, line34, line64, line68, line37, line77, line78, line31, line32, line33, line79, line35, line36, line37,
   line80, line81, line42, line43, line33, line34, line35, line82, line37, line83, line84, line42, line32, line33, line85, line35,
   line86, line37, line87, line88, line31, line32, line33, line79, line35, line36, line37, line89, line90, line52, line43, line33,
   line34, line64, line91, line37, line92, line93, line52, line43, line33, line34, line64, line91, line37, line94, line95, line52,
   line43, line33, line34, line64, line91, line37, line96, line97, line52, line43, line33, line44, line35, line36, line37, line98,
   line99, line42, line32, line33, line44, line35, line86, line37, line100, line101, line102, line48, line33, line44, line35, line45,
   line37, line103, line104, line42, line48, line33, line79, line35, line36, line37, line105, line106, line31, line32, line33, line34,
   line35, line36, line37, line107, line108, line52, line43, line33, line34, line64, line91, line37, line109, line110, line102, line48,
   line33, line44, line35, line36, line37, line111, line112, line42, line48, line33, line44, line35, line68, line37, line113, line114,
   line42, line48, line33, line44, line35, line68, line37, line115, line116, line42, line48, line33, line44, line35, line68, line37,
   line117, line118, line42, line43, line33, line44, line35, line36, line37, line119, line120, line52, line43, line33, line34, line64,
   line91, line37, line121, line122, line52, line43, line33, line34, line64, line91, line37, line123, line124, line52, line43, line33,
   line34, line64, line91, line37, line125, line126, line52, line43, line33, line34, line64, line91, line37, line127, line128, line52,
   line43, line33, line34, line64, line91, line37, line129, line130, line52, line43, line33, line34, line64, line91, line37, line131,
   line132, line102, line48, line33, line44, line35, line36, line133, line134, line135, line29, line30, line52, line43, line33, line34,
   line35, line36, line37, line38, line39, line52, line43, line33, line34, line35, line36, line37, line40, line41, line42, line43,
   line33, line44, line35, line45, line37, line46, line47, line42, line48, line33, line44, line35, line49, line37, line50, line51,
   line136, line48, line33, line34, line35, line53, line37, line54, line55, line136, line48, line33, line34, line35, line53, line37,
   line56, line57, line136, line48, line33, line34, line35, line53, line37, line58, line59, line136, line48, line33, line34, line35,
   line53, line37, line60, line61, line52, line43, line33, line34, line35, line53, line37, line62, line63, line136, line48, line33,
   line34, line64, line65, line37, line66, line67, line136, line48, line33, line34, line64, line68, line37, line69, line70, line136,
   line48, line33, line34, line64, line65, line37, line71, line72, line136, line48, line33, line34, line64, line68, line37, line73,
   line74, line136, line48, line33, line34, line64, line65, line37, line75, line76, line136, line48, line33, line34, line64, line68,
   line37, line77, line78, line31, line32, line33, line79, line35, line36, line37, line80, line81, line42, line48, line33, line137,
   line35, line82, line37, line83, line84, line42, line32, line33, line85, line35, line86, line37, line87, line88, line31, line32,
   line33, line79, line35, line36, line37, line89, line90, line136, line48, line33, line335, line64, line91, line37, line92, line93,
   line136, line48, line33, line335, line64, line91, line37, line94, line95, line136, line48, line33, line335, line64, line91, line37,
   line96, line97, line52, line43, line33, line44, line35, line36, line37, line98, line99, line42, line32, line33, line44, line35,
   line86, line37, line100, line101, line102, line48, line33, line44, line35, line45, line37, line103, line104, line42, line48, line33,
   line79, line35, line36, line37, line105, line106, line52, line43, line33, line79, line35, line36, line37, line107, line108, line136,
   line48, line33, line34, line64, line91, line37, line109, line110, line102, line48, line33, line44, line35, line36, line37, line111,
   line112, line42, line48, line33, line44, line35, line68, line37, line113, line114, line42, line48, line33, line44, line35, line68,
   line37, line115, line116, line42, line48, line33, line44, line35, line68, line37, line117, line118, line42, line43, line33, line44,
   line35, line36, line37, line119, line120, line136, line48, line33, line34, line64, line91, line37, line121, line122, line136, line48,
   line33, line34, line64, line91, line37, line123, line124, line136, line48, line33, line34, line64, line91, line37, line125, line126,
   line136, line48, line33, line34, line64, line91, line37, line127, line128, line136, line48, line33, line34, line64, line91, line37,
   line129, line130, line136, line48, line33, line34, line64, line91, line37, line131, line132, line102, line48, line33, line44, line35,
   line36, line133, line138, line139]

/-- The text of conf/fanuc_mill/gcode_groups.json. -/
def fanucMillCodeGroups : Str := List.flatten
  [line0, line140, line141, line142, line143, line144, line145, line146, line144, line145, line146, line147, line145, line146, line148, line145,
   line149, line144, line145, line149, line147, line145, line150, line144, line145, line151, line144, line145, line152, line144, line145, line152,
   line153, line145, line152, line154, line145, line155, line144, line145, line156, line144, line145, line157, line144, line145, line158, line144,
   line145, line159, line144, line145, line159, line147, line145, line160, line144, line145, line160, line161, line145, line191, line144, line145,
   line192, line144, line145, line193, line144, line145, line288, line144, line145, line290, line144, line145, line291, line144, line145, line276,
   line144, line145, line164, line144, line145, line165, line144, line145, line165, line147, line145, line166, line144, line145, line167, line144,
   line145, line170, line147, line145, line170, line171, line145, line223, line147, line145, line176, line147, line145, line195, line144, line145,
   line195, line147, line145, line177, line144, line179, line180, line181, line144, line145, line182, line144, line145, line183, line144, line145,
   line184, line144, line145, line183, line171, line145, line183, line163, line145, line183, line148, line145, line184, line171, line145, line184,
   line163, line145, line184, line148, line145, line185, line171, line145, line283, line144, line145, line187, line144, line145, line188, line144,
   line145, line189, line144, line179, line197, line247, line144, line145, line248, line144, line145, line249, line144, line179, line275, line194,
   line144, line145, line176, line144, line179, line200, line219, line144, line145, line220, line144, line179, line203, line204, line144, line145,
   line196, line144, line145, line312, line144, line179, line207, line208, line144, line145, line209, line144, line145, line168, line144, line145,
   line169, line144, line179, line210, line211, line144, line145, line212, line144, line145, line212, line171, line145, line212, line163, line145,
   line212, line148, line145, line212, line213, line145, line212, line153, line145, line214, line144, line145, line214, line171, line145, line214,
   line148, line145, line214, line213, line145, line214, line153, line179, line215, line262, line144, line145, line264, line144, line145, line262,
   line147, line145, line262, line148, line145, line262, line213, line145, line265, line144, line145, line265, line147, line179, line218, line172,
   line144, line145, line173, line144, line145, line175, line144, line145, line222, line144, line145, line223, line144, line145, line224, line144,
   line145, line225, line144, line145, line226, line144, line145, line226, line171, line145, line226, line163, line145, line227, line144, line145,
   line310, line144, line145, line228, line144, line145, line229, line144, line145, line230, line144, line179, line221, line205, line144, line145,
   line206, line144, line179, line277, line162, line144, line145, line252, line144, line179, line231, line232, line144, line145, line232, line147,
   line145, line233, line144, line179, line279, line198, line144, line145, line199, line144, line179, line234, line235, line144, line145, line235,
   line147, line145, line235, line171, line145, line236, line144, line145, line237, line144, line145, line238, line144, line145, line239, line144,
   line145, line240, line144, line179, line241, line242, line144, line145, line243, line144, line145, line244, line144, line145, line245, line144,
   line179, line246, line201, line144, line145, line202, line144, line145, line201, line171, line179, line250, line267, line144, line145, line268,
   line144, line179, line284, line216, line144, line145, line217, line144, line145, line211, line147, line145, line212, line147, line145, line214,
   line147, line179, line255, line256, line147, line145, line257, line147, line145, line258, line144, line145, line259, line144, line179, line260,
   line162, line147, line145, line252, line147, line179, line266, line222, line213, line145, line223, line213, line179, line292, line162, line171,
   line145, line252, line171, line179, line295, line222, line161, line145, line223, line161, line271, line272, line273]

/-- The text of conf/fanuc_millturn_system_a/gcode_groups.json. -/
def fanucMillturnSystemACodeGroups : Str := List.flatten
  [line0, line140, line141, line142, line143, line144, line145, line146, line144, line145, line146, line147, line145, line149, line147, line145,
   line150, line144, line145, line151, line144, line145, line152, line144, line145, line152, line154, line145, line155, line144, line145, line156,
   line144, line145, line157, line144, line145, line159, line144, line145, line159, line147, line145, line160, line144, line145, line192, line144,
   line145, line162, line144, line145, line162, line163, line145, line164, line144, line145, line165, line144, line145, line165, line147, line145,
   line167, line144, line145, line168, line144, line145, line169, line144, line145, line170, line144, line145, line172, line144, line145, line173,
   line144, line145, line174, line144, line145, line175, line144, line145, line222, line148, line145, line223, line148, line145, line177, line178,
   line179, line180, line181, line144, line145, line182, line144, line145, line183, line144, line145, line184, line144, line145, line185, line171,
   line145, line186, line144, line145, line187, line144, line145, line188, line144, line145, line189, line144, line145, line194, line144, line145,
   line195, line144, line145, line196, line178, line179, line197, line198, line144, line145, line199, line144, line179, line200, line201, line144,
   line145, line202, line144, line179, line203, line205, line144, line145, line206, line144, line179, line207, line208, line144, line145, line209,
   line144, line179, line210, line211, line144, line145, line212, line144, line145, line212, line171, line145, line212, line153, line145, line212,
   line161, line145, line214, line144, line145, line214, line171, line145, line214, line153, line145, line214, line161, line179, line218, line219,
   line144, line145, line220, line144, line179, line221, line222, line144, line145, line225, line144, line145, line225, line213, line145, line225,
   line153, line145, line226, line144, line145, line227, line144, line145, line228, line144, line145, line228, line213, line145, line228, line153,
   line145, line229, line171, line145, line230, line144, line179, line231, line232, line144, line145, line232, line147, line145, line233, line144,
   line179, line234, line235, line144, line145, line235, line147, line145, line236, line144, line145, line237, line144, line145, line238, line144,
   line145, line239, line144, line145, line240, line144, line179, line241, line242, line144, line145, line243, line144, line145, line244, line144,
   line145, line245, line144, line179, line246, line247, line144, line145, line248, line144, line145, line249, line144, line179, line250, line201,
   line147, line145, line201, line171, line145, line202, line147, line179, line251, line162, line171, line145, line252, line171, line179, line255,
   line256, line147, line145, line257, line147, line145, line258, line144, line145, line259, line144, line179, line260, line162, line147, line145,
   line252, line147, line179, line261, line262, line144, line145, line262, line148, line145, line262, line213, line145, line290, line161, line145,
   line265, line144, line179, line286, line235, line148, line271, line272, line273]

/-- The text of conf/fanuc_millturn_system_b/gcode_groups.json. -/
def fanucMillturnSystemBCodeGroups : Str := List.flatten
  [line0, line140, line141, line142, line143, line144, line145, line146, line144, line145, line146, line147, line145, line149, line147, line145,
   line150, line144, line145, line151, line144, line145, line152, line144, line145, line152, line154, line145, line155, line144, line145, line156,
   line144, line145, line157, line144, line145, line159, line144, line145, line159, line147, line145, line160, line144, line145, line192, line144,
   line145, line162, line163, line145, line164, line144, line145, line165, line144, line145, line165, line147, line145, line167, line144, line145,
   line168, line144, line145, line169, line144, line145, line170, line144, line145, line172, line144, line145, line173, line144, line145, line174,
   line144, line145, line175, line144, line145, line222, line148, line145, line223, line148, line145, line177, line178, line179, line180, line181,
   line144, line145, line182, line144, line145, line183, line144, line145, line184, line144, line145, line185, line171, line145, line283, line144,
   line145, line187, line144, line145, line188, line144, line145, line189, line336, line179, line197, line198, line144, line145, line199, line144,
   line179, line200, line201, line144, line145, line202, line144, line179, line203, line196, line144, line145, line312, line144, line179, line207,
   line208, line144, line145, line209, line144, line179, line210, line211, line144, line145, line212, line144, line145, line212, line171, line145,
   line212, line153, line145, line212, line161, line145, line214, line144, line145, line214, line171, line145, line214, line153, line145, line214,
   line161, line179, line218, line219, line144, line145, line220, line144, line179, line221, line222, line144, line145, line225, line144, line145,
   line225, line213, line145, line225, line153, line145, line226, line144, line145, line227, line144, line145, line228, line144, line145, line228,
   line213, line145, line228, line153, line145, line229, line171, line145, line230, line144, line179, line231, line232, line144, line145, line232,
   line147, line145, line233, line144, line179, line234, line235, line144, line145, line235, line147, line145, line236, line144, line145, line237,
   line144, line145, line238, line144, line145, line239, line144, line145, line240, line144, line145, line195, line144, line179, line241, line242,
   line144, line145, line243, line144, line145, line244, line144, line145, line245, line144, line179, line246, line247, line144, line145, line248,
   line144, line145, line249, line144, line179, line250, line201, line147, line145, line201, line171, line145, line202, line147, line179, line282,
   line306, line144, line145, line307, line144, line145, line308, line144, line179, line251, line162, line144, line145, line252, line144, line179,
   line255, line256, line147, line145, line257, line147, line145, line258, line144, line145, line259, line144, line179, line260, line162, line147,
   line145, line252, line147, line179, line261, line262, line144, line145, line262, line148, line145, line262, line213, line145, line290, line161,
   line145, line265, line144, line179, line266, line194, line144, line145, line176, line144, line179, line285, line205, line144, line145, line206,
   line144, line334, line286, line235, line148, line271, line272, line273]

/-- The text of conf/generic_lathe/grammar.json. -/
def genericLatheWords : Str := List.flatten
  [line0, line1, line2, line3, line4, line5, line6, line7, line8, line9, line10, line11, line12, line13, line14, line15,
   line16, line12, line13, line14, line17, line18, line19, line20, line21, line22, line23, line24, line25, line26, line27, line28,
   line29, line30, line31, line32, line33, line34, line35, line36, line37, line38, line39, line31, line32, line33, line34, line35,
   line36, line37, line40, line41, line42, line43, line33, line44, line35, line45, line37, line46, line47, line42, line48, line33,
   line44, line35, line49, line37, line50, line51, line52, line43, line33, line34, line35, line53, line37, line54, line55, line52,
   line43, line33, line34, line35, line53, line37, line56, line57, line52, line43, line33, line34, line35, line53, line37, line58,
   line59, line52, line43, line33, line34, line35, line53, line37, line60, line61, line52, line43, line33, line34, line35, line53,
   line37, line62, line63, line52, line43, line33, line34, line64, line65, line37, line66, line67, line52, line43, line33, line34,
   line64, line68, line37, line69, line70, line52, line43, line33, line34, line64, line65, line37, line71, line72, line52, line43,
   line33, line34, line64, line68, line37, line73, line74, line52, line43, line33, line34, line64, line65, line37, line75, line76,
   line52, line43, line33, line34, line64, line68, line37, line77, line78, line52, line43, line33, line79, line35, line36, line37,
   line80, line81, line42, line43, line33, line34, line35, line82, line37, line83, line84, line42, line32, line33, line85, line35,
   line86, line37, line87, line88, line52, line43, line33, line34, line35, line36, line37, line89, line90, line52, line43, line33,
   line34, line64, line91, line37, line92, line93, line52, line43, line33, line34, line64, line91, line37, line94, line95, line52,
   line43, line33, line34, line64, line91, line37, line96, line97, line52, line43, line33, line44, line35, line36, line37, line98,
   line99, line42, line32, line33, line44, line35, line86, line37, line100, line101, line102, line48, line33, line44, line35, line45,
   line37, line103, line104, line42, line48, line33, line79, line35, line36, line37, line105, line106, line31, line32, line33, line34,
   line35, line36, line37, line107, line108, line52, line43, line33, line34, line64, line91, line37, line109, line110, line102, line48,
   line33, line44, line35, line36, line37, line111, line112, line42, line48, line33, line44, line35, line68, line37, line113, line114,
   line42, line48, line33, line44, line35, line68, line37, line115, line116, line42, line48, line33, line44, line35, line68, line37,
   line117, line118, line42, line43, line33, line34, line35, line36, line37, line119, line120, line52, line43, line33, line34, line64,
   line91, line37, line121, line122, line52, line43, line33, line34, line64, line91, line37, line123, line124, line52, line43, line33,
   line34, line64, line91, line37, line125, line126, line52, line43, line33, line34, line64, line91, line37, line127, line128, line52,
   line43, line33, line34, line64, line91, line37, line129, line130, line52, line43, line33, line34, line64, line91, line37, line131,
   line132, line102, line48, line33, line44, line35, line36, line133, line134, line135, line29, line30, line52, line43, line33, line79,
   line35, line36, line37, line38, line39, line52, line43, line33, line79, line35, line36, line37, line40, line41, line42, line43,
   line33, line44, line35, line45, line37, line46, line47, line42, line48, line33, line44, line35, line49, line37, line50, line51,
   line136, line48, line33, line34, line35, line53, line37, line54, line55, line136, line48, line33, line34, line35, line53, line37,
   line56, line57, line136, line48, line33, line34, line35, line53, line37, line58, line59, line136, line48, line33, line34, line35,
   line53, line37, line60, line61, line52, line43, line33, line34, line35, line53, line37, line62, line63, line136, line48, line33,
   line34, line64, line65, line37, line66, line67, line136, line48, line33, line34, line64, line68, line37, line69, line70, line136,
   line48, line33, line34, line64, line65, line37, line71, line72, line136, line48, line33, line34, line64, line68, line37, line73,
   line74, line136, line48, line33, line34, line64, line65, line37, line75, line76, line136, line48, line33, line34, line64, line68,
   line37, line77, line78, line31, line32, line33, line79, line35, line36, line37, line80, line81, line42, line48, line33, line137,
   line35, line82, line37, line83, line84, line42, line32, line33, line85, line35, line86, line37, line87, line88, line31, line32,
   line33, line79, line35, line36, line37, line89, line90, line136, line48, line33, line34, line64, line91, line37, line92, line93,
   line136, line48, line33, line34, line64, line91, line37, line94, line95, line136, line48, line33, line34, line64, line91, line37,
   line96, line97, line52, line43, line33, line44, line35, line36, line37, line98, line99, line42, line32, line33, line44, line35,
   line86, line37, line100, line101, line102, line48, line33, line44, line35, line45, line37, line103, line104, line42, line48, line33,
   line79, line35, line36, line37, line105, line106, line52, line43, line33, line79, line35, line36, line37, line107, line108, line136,
   line48, line33, line34, line64, line91, line37, line109, line110, line102, line48, line33, line44, line35, line36, line37, line111,
   line112, line42, line48, line33, line44, line35, line68, line37, line113, line114, line42, line48, line33, line44, line35, line68,
   line37, line115, line116, line42, line48, line33, line44, line35, line68, line37, line117, line118, line42, line43, line33, line34,
   line35, line36, line37, line119, line120, line136, line48, line33, line34, line64, line91, line37, line121, line122, line136, line48,
   line33, line34, line64, line91, line37, line123, line124, line136, line48, line33, line34, line64, line91, line37, line125, line126,
   line136, line48, line33, line34, line64, line91, line37, line127, line128, line136, line48, line33, line34, line64, line91, line37,
   line129, line130, line136, line48, line33, line34, line64, line91, line37, line131, line132, line102, line48, line33, line44, line35,
   line36, line133, line138, line139]

/-- The text of conf/generic_lathe/gcode_groups.json. -/
def genericLatheCodeGroups : Str := List.flatten
  [line0, line140, line141, line142, line143, line144, line145, line151, line144, line145, line152, line144, line145, line157, line144, line145,
   line158, line144, line145, line160, line144, line145, line162, line144, line145, line252, line144, line145, line164, line144, line145, line165,
   line144, line145, line167, line144, line145, line168, line144, line145, line169, line144, line145, line170, line144, line145, line172, line144,
   line145, line173, line144, line145, line174, line144, line145, line175, line144, line179, line180, line181, line144, line145, line182, line144,
   line145, line183, line144, line145, line184, line144, line145, line186, line144, line145, line194, line144, line145, line195, line144, line145,
   line196, line144, line179, line197, line247, line144, line145, line248, line144, line145, line249, line144, line179, line207, line208, line144,
   line145, line209, line144, line179, line210, line211, line144, line145, line212, line144, line145, line214, line144, line179, line218, line222,
   line144, line145, line223, line144, line145, line224, line144, line145, line225, line144, line145, line226, line144, line145, line227, line144,
   line145, line310, line144, line145, line228, line144, line145, line229, line144, line145, line230, line144, line145, line312, line144, line179,
   line221, line205, line144, line145, line206, line144, line179, line231, line235, line144, line145, line236, line144, line145, line237, line144,
   line145, line238, line144, line145, line239, line144, line145, line240, line144, line179, line279, line198, line144, line145, line199, line144,
   line179, line241, line242, line144, line145, line245, line144, line179, line250, line274, line144, line145, line267, line144, line271, line272,
   line139]

/-- The text of conf/generic_lathe/mcode_groups.json. -/
def genericLatheFunctionGroups : Str := List.flatten
  [line0, line1, line141, line142, line181, line144, line145, line182, line144, line145, line183, line144, line145, line159, line144, line179,
   line180, line184, line144, line145, line143, line144, line145, line146, line144, line179, line197, line149, line144, line145, line150, line144,
   line145, line151, line144, line179, line275, line257, line144, line145, line274, line144, line179, line200, line199, line144, line145, line205,
   line144, line145, line206, line144, line271, line272, line273]

/-- The text of conf/generic_mill/grammar.json. -/
def genericMillWords : Str := List.flatten
  [line0, line1, line2, line3, line4, line5, line6, line7, line8, line9, line10, line11, line12, line13, line14, line15,
   line16, line12, line13, line14, line17, line18, line19, line20, line21, line22, line23, line24, line25, line26, line27, line28,
   line29, line30, line31, line32, line33, line34, line35, line36, line37, line38, line39, line31, line32, line33, line34, line35,
   line36, line37, line40, line41, line42, line43, line33, line44, line35, line45, line37, line46, line47, line42, line48, line33,
   line44, line35, line49, line37, line50, line51, line52, line43, line33, line34, line35, line53, line37, line54, line55, line52,
   line43, line33, line34, line35, line53, line37, line56, line57, line52, line43, line33, line34, line35, line53, line37, line58,
   line59, line52, line43, line33, line34, line35, line53, line37, line60, line61, line52, line43, line33, line34, line35, line53,
   line37, line62, line63, line52, line43, line33, line34, line64, line65, line37, line66, line67, line52, line43, line33, line34,
   line64, line68, line37, line69, line70, line52, line43, line33, line34, line64, line65, line37, line71, line72, line52, line43,
   line33, line34, line64, line68, line37, line73, line74, line52, line43, line33, line34, line64, line65, line37, line75, line76,
   line52, line43, line33, line34, line64, line68, line37, line77, line78, line52, line43, line33, line79, line35, line36, line37,
   line80, line81, line42, line43, line33, line34, line35, line82, line37, line83, line84, line42, line32, line33, line85, line35,
   line86, line37, line87, line88, line52, line43, line33, line34, line35, line36, line37, line89, line90, line52, line43, line33,
   line34, line64, line91, line37, line92, line93, line52, line43, line33, line34, line64, line91, line37, line94, line95, line52,
   line43, line33, line34, line64, line91, line37, line96, line97, line52, line43, line33, line44, line35, line36, line37, line98,
   line99, line42, line32, line33, line44, line35, line86, line37, line100, line101, line102, line48, line33, line44, line35, line45,
   line37, line103, line104, line42, line48, line33, line79, line35, line36, line37, line105, line106, line31, line32, line33, line34,
   line35, line36, line37, line107, line108, line52, line43, line33, line34, line64, line91, line37, line109, line110, line102, line48,
   line33, line44, line35, line36, line37, line111, line112, line42, line48, line33, line44, line35, line68, line37, line113, line114,
   line42, line48, line33, line44, line35, line68, line37, line115, line116, line42, line48, line33, line44, line35, line68, line37,
   line117, line118, line42, line43, line33, line44, line35, line36, line37, line119, line120, line52, line43, line33, line34, line64,
   line91, line37, line121, line122, line52, line43, line33, line34, line64, line91, line37, line123, line124, line52, line43, line33,
   line34, line64, line91, line37, line125, line126, line52, line43, line33, line34, line64, line91, line37, line127, line128, line52,
   line43, line33, line34, line64, line91, line37, line129, line130, line52, line43, line33, line34, line64, line91, line37, line131,
   line132, line102, line48, line33, line44, line35, line36, line133, line134, line135, line29, line30, line52, line43, line33, line79,
   line35, line36, line37, line38, line39, line52, line43, line33, line79, line35, line36, line37, line40, line41, line42, line43,
   line33, line44, line35, line45, line37, line46, line47, line42, line43, line33, line44, line35, line49, line37, line50, line51,
   line136, line48, line33, line34, line35, line53, line37, line54, line55, line136, line48, line33, line34, line35, line53, line37,
   line56, line57, line136, line48, line33, line34, line35, line53, line37, line58, line59, line136, line48, line33, line34, line35,
   line53, line37, line60, line61, line52, line43, line33, line34, line35, line53, line37, line62, line63, line136, line48, line33,
   line34, line64, line65, line37, line66, line67, line136, line48, line33, line34, line64, line68, line37, line69, line70, line136,
   line48, line33, line34, line64, line65, line37, line71, line72, line136, line48, line33, line34, line64, line68, line37, line73,
   line74, line136, line48, line33, line34, line64, line65, line37, line75, line76, line136, line48, line33, line34, line64, line68,
   line37, line77, line78, line31, line32, line33, line79, line35, line36, line37, line80, line81, line42, line48, line33, line137,
   line35, line82, line37, line83, line84, line42, line32, line33, line85, line35, line86, line37, line87, line88, line31, line32,
   line33, line79, line35, line36, line37, line89, line90, line136, line48, line33, line34, line64, line91, line37, line92, line93,
   line136, line48, line33, line34, line64, line91, line37, line94, line95, line136, line48, line33, line34, line64, line91, line37,
   line96, line97, line52, line43, line33, line44, line35, line36, line37, line98, line99, line42, line32, line33, line44, line35,
   line86, line37, line100, line101, line102, line48, line33, line44, line35, line45, line37, line103, line104, line42, line48, line33,
   line79, line35, line36, line37, line105, line106, line52, line43, line33, line79, line35, line36, line37, line107, line108, line136,
   line48, line33, line34, line64, line91, line37, line109, line110, line102, line48, line33, line44, line35, line36, line37, line111,
   line112, line42, line48, line33, line44, line35, line68, line37, line113, line114, line42, line48, line33, line44, line35, line68,
   line37, line115, line116, line42, line48, line33, line44, line35, line68, line37, line117, line118, line42, line43, line33, line44,
   line35, line36, line37, line119, line120, line136, line48, line33, line34, line64, line91, line37, line121, line122, line136, line48,
   line33, line34, line64, line91, line37, line123, line124, line136, line48, line33, line34, line64, line91, line37, line125, line126,
   line136, line48, line33, line34, line64, line91, line37, line127, line128, line136, line48, line33, line34, line64, line91, line37,
   line129, line130, line136, line48, line33, line34, line64, line91, line37, line131, line132, line102, line48, line33, line44, line35,
   line36, line133, line138, line139]

/-- The text of conf/generic_mill/gcode_groups.json. -/
def genericMillCodeGroups : Str := List.flatten
  [line0, line140, line141, line142, line143, line144, line145, line151, line144, line145, line152, line144, line145, line157, line144, line145,
   line158, line144, line145, line160, line144, line145, line164, line144, line145, line165, line144, line145, line167, line144, line145, line169,
   line144, line179, line180, line181, line144, line145, line182, line144, line145, line183, line144, line145, line184, line144, line179, line197,
   line247, line144, line145, line248, line144, line145, line249, line144, line179, line275, line194, line144, line145, line176, line144, line179,
   line203, line196, line144, line145, line312, line144, line179, line207, line208, line144, line145, line209, line144, line179, line210, line211,
   line144, line145, line212, line144, line145, line214, line144, line179, line215, line262, line144, line145, line264, line144, line145, line265,
   line144, line179, line218, line172, line144, line145, line173, line144, line145, line175, line144, line145, line222, line144, line145, line223,
   line144, line145, line224, line144, line145, line225, line144, line145, line226, line144, line145, line227, line144, line145, line310, line144,
   line145, line230, line144, line179, line221, line205, line144, line145, line206, line144, line179, line277, line162, line144, line145, line252,
   line144, line179, line231, line164, line144, line145, line235, line144, line145, line236, line144, line145, line237, line144, line145, line238,
   line144, line145, line239, line336, line179, line241, line242, line144, line145, line245, line144, line179, line246, line201, line144, line145,
   line202, line144, line271, line272, line139]

/-- The text of conf/generic_mill/mcode_groups.json. -/
def genericMillFunctionGroups : Str := List.flatten
  [line0, line1, line141, line142, line181, line144, line145, line182, line144, line145, line183, line144, line145, line159, line144, line179,
   line180, line184, line144, line145, line143, line144, line145, line146, line144, line179, line197, line149, line144, line145, line150, line144,
   line145, line151, line144, line179, line275, line247, line144, line179, line200, line158, line144, line179, line203, line199, line144, line145,
   line205, line144, line145, line206, line144, line271, line272, line273]

/-- The text of conf/haas_lathe/grammar.json. -/
def haasLatheWords : Str := List.flatten
  [line337, line338, line339, line340, line341, line342, line343, line344, line345, line346, line347, line348, line349, line350, line351, line352,
   line353, line349, line350, line351, line354, line355, line356, line357, line358, line359, line360, line361, line362, line363, line364, line365,
   line366, line367, line368, line369, line370, line371, line372, line373, line374, line375, line376, line368, line369, line370, line371, line372,
   line373, line374, line377, line378, line379, line380, line370, line381, line372, line382, line374, line383, line384, line379, line385, line370,
   line381, line372, line386, line374, line387, line388, line389, line380, line370, line371, line372, line390, line374, line391, line392, line389,
   line380, line370, line371, line372, line390, line374, line393, line394, line389, line380, line370, line371, line372, line390, line374, line395,
   line396, line389, line380, line370, line371, line372, line390, line374, line397, line398, line389, line380, line370, line371, line372, line390,
   line374, line399, line400, line389, line380, line370, line371, line401, line402, line374, line403, line404, line389, line380, line370, line371,
   line401, line405, line374, line406, line407, line389, line380, line370, line371, line401, line402, line374, line408, line409, line389, line380,
   line370, line371, line401, line405, line374, line410, line411, line389, line380, line370, line371, line401, line402, line374, line412, line413,
   line389, line380, line370, line371, line401, line405, line374, line414, line415, line368, line369, line370, line371, line372, line373, line374,
   line416, line417, line379, line380, line370, line371, line372, line418, line374, line419, line420, line379, line369, line370, line421, line372,
   line422, line374, line423, line424, line368, line369, line370, line371, line372, line373, line374, line425, line426, line389, line380, line370,
   line371, line401, line427, line374, line428, line429, line389, line380, line370, line371, line401, line427, line374, line430, line431, line389,
   line380, line370, line371, line401, line427, line374, line432, line433, line389, line380, line370, line381, line372, line373, line374, line434,
   line435, line379, line369, line370, line381, line372, line422, line374, line436, line437, line438, line385, line370, line381, line372, line382,
   line374, line439, line440, line379, line385, line370, line441, line372, line373, line374, line442, line443, line368, line369, line370, line371,
   line372, line373, line374, line444, line445, line389, line380, line370, line371, line401, line427, line374, line446, line447, line438, line385,
   line370, line381, line372, line373, line374, line448, line449, line379, line385, line370, line381, line372, line405, line374, line450, line451,
   line379, line385, line370, line381, line372, line405, line374, line452, line453, line379, line385, line370, line381, line372, line405, line374,
   line454, line455, line379, line380, line370, line381, line372, line373, line374, line456, line457, line389, line380, line370, line371, line401,
   line427, line374, line458, line459, line389, line380, line370, line371, line401, line427, line374, line460, line461, line389, line380, line370,
   line371, line401, line427, line374, line462, line463, line389, line380, line370, line371, line401, line427, line374, line464, line465, line389,
   line380, line370, line371, line401, line427, line374, line466, line467, line389, line380, line370, line371, line401, line427, line374, line468,
   line469, line438, line385, line370, line381, line372, line373, line470, line471, line472, line366, line367, line389, line380, line370, line441,
   line372, line373, line374, line375, line376, line389, line380, line370, line441, line372, line373, line374, line377, line378, line379, line380,
   line370, line381, line372, line382, line374, line383, line384, line379, line385, line370, line381, line372, line386, line374, line387, line388,
   line473, line385, line370, line371, line372, line390, line374, line391, line392, line473, line385, line370, line371, line372, line390, line374,
   line393, line394, line473, line385, line370, line371, line372, line390, line374, line395, line396, line473, line385, line370, line371, line372,
   line390, line374, line397, line398, line389, line380, line370, line371, line372, line390, line374, line399, line400, line473, line385, line370,
   line371, line401, line402, line374, line403, line404, line473, line385, line370, line371, line401, line405, line374, line406, line407, line473,
   line385, line370, line371, line401, line402, line374, line408, line409, line473, line385, line370, line371, line401, line405, line374, line410,
   line411, line473, line385, line370, line371, line401, line402, line374, line412, line413, line473, line385, line370, line371, line401, line405,
   line374, line414, line415, line389, line380, line370, line441, line372, line373, line374, line416, line417, line379, line385, line370, line474,
   line372, line418, line374, line419, line420, line379, line369, line370, line421, line372, line422, line374, line423, line424, line389, line380,
   line370, line441, line372, line373, line374, line425, line426, line473, line385, line370, line371, line401, line427, line374, line428, line429,
   line473, line385, line370, line371, line401, line427, line374, line430, line431, line473, line385, line370, line371, line401, line427, line374,
   line432, line433, line389, line380, line370, line381, line372, line373, line374, line434, line435, line379, line369, line370, line381, line372,
   line422, line374, line436, line437, line438, line385, line370, line381, line372, line382, line374, line439, line440, line379, line385, line370,
   line441, line372, line373, line374, line442, line443, line389, line380, line370, line441, line372, line373, line374, line444, line445, line473,
   line385, line370, line371, line401, line427, line374, line446, line447, line438, line385, line370, line381, line372, line373, line374, line448,
   line449, line379, line385, line370, line381, line372, line405, line374, line450, line451, line379, line385, line370, line381, line372, line405,
   line374, line452, line453, line379, line385, line370, line381, line372, line405, line374, line454, line455, line379, line380, line370, line381,
   line372, line373, line374, line456, line457, line473, line385, line370, line371, line401, line427, line374, line458, line459, line473, line385,
   line370, line371, line401, line427, line374, line460, line461, line473, line385, line370, line371, line401, line427, line374, line462, line463,
   line473, line385, line370, line371, line401, line427, line374, line464, line465, line473, line385, line370, line371, line401, line427, line374,
   line466, line467, line473, line385, line370, line371, line401, line427, line374, line468, line469, line438, line385, line370, line381, line372,
   line373, line470, line475, line139]

/-- The text of conf/haas_lathe/gcode_groups.json. -/
def haasLatheCodeGroups : Str := List.flatten
  [line0, line140, line141, line142, line143, line144, line145, line151, line144, line145, line152, line144, line145, line157, line144, line145,
   line158, line144, line145, line160, line144, line145, line162, line144, line145, line252, line144, line145, line164, line144, line145, line165,
   line144, line145, line167, line144, line145, line168, line144, line145, line169, line144, line145, line170, line144, line145, line172, line144,
   line145, line173, line144, line145, line174, line144, line145, line175, line144, line145, line476, line144, line145, line315, line144, line145,
   line477, line144, line145, line478, line144, line145, line479, line144, line145, line480, line144, line145, line481, line144, line145, line280,
   line144, line145, line482, line144, line145, line483, line144, line179, line180, line181, line144, line145, line182, line144, line145, line183,
   line144, line145, line184, line144, line145, line186, line144, line145, line194, line144, line145, line195, line144, line145, line196, line144,
   line179, line197, line247, line144, line145, line248, line144, line145, line249, line144, line179, line200, line258, line144, line145, line259,
   line144, line179, line207, line208, line144, line145, line209, line144, line179, line210, line211, line144, line145, line212, line144, line145,
   line214, line144, line179, line218, line222, line144, line145, line223, line144, line145, line224, line144, line145, line225, line144, line145,
   line226, line144, line145, line227, line144, line145, line310, line144, line145, line228, line144, line145, line229, line144, line145, line230,
   line144, line145, line312, line144, line145, line484, line144, line145, line485, line144, line145, line486, line144, line145, line487, line144,
   line145, line488, line144, line145, line489, line144, line145, line490, line144, line145, line491, line144, line145, line492, line144, line145,
   line493, line144, line179, line221, line205, line144, line145, line206, line144, line145, line494, line144, line179, line231, line235, line144,
   line145, line236, line144, line145, line237, line144, line145, line238, line144, line145, line239, line144, line145, line240, line144, line145,
   line495, line144, line145, line496, line336, line145, line497, line144, line145, line498, line144, line145, line499, line144, line145, line500,
   line144, line145, line501, line144, line145, line317, line144, line145, line502, line144, line145, line503, line144, line145, line504, line144,
   line145, line505, line144, line145, line506, line144, line145, line507, line144, line145, line508, line144, line145, line319, line144, line145,
   line320, line509, line145, line321, line144, line145, line510, line336, line179, line279, line198, line144, line145, line199, line144, line179,
   line241, line242, line144, line145, line245, line144, line179, line250, line274, line144, line145, line267, line144, line271, line272, line139]

/-- The text of conf/haas_lathe/mcode_groups.json. -/
def haasLatheFunctionGroups : Str := List.flatten
  [line0, line1, line141, line142, line181, line144, line145, line182, line144, line145, line183, line144, line145, line159, line144, line179,
   line180, line184, line144, line145, line143, line144, line145, line146, line144, line179, line197, line150, line144, line145, line151, line144,
   line179, line275, line152, line144, line145, line155, line144, line179, line200, line256, line144, line145, line257, line144, line179, line203,
   line274, line144, line145, line267, line144, line179, line207, line247, line144, line145, line248, line144, line179, line210, line249, line144,
   line179, line215, line209, line144, line145, line219, line144, line179, line218, line220, line144, line145, line278, line144, line179, line221,
   line160, line144, line145, line283, line144, line179, line277, line189, line144, line145, line191, line144, line179, line231, line192, line144,
   line145, line193, line144, line179, line279, line212, line144, line145, line214, line144, line179, line234, line262, line144, line145, line264,
   line144, line179, line241, line252, line144, line179, line246, line164, line144, line179, line250, line165, line144, line179, line282, line235,
   line144, line179, line284, line236, line144, line179, line251, line237, line144, line179, line255, line238, line144, line179, line260, line239,
   line144, line179, line261, line240, line144, line145, line202, line144, line179, line266, line242, line144, line179, line285, line243, line144,
   line179, line286, line244, line144, line179, line269, line245, line144, line179, line270, line167, line144, line179, line287, line232, line144,
   line179, line289, line233, line144, line145, line201, line336, line179, line292, line175, line144, line145, line306, line144, line179, line293,
   line307, line144, line145, line308, line144, line179, line294, line227, line144, line145, line310, line144, line179, line295, line229, line144,
   line145, line230, line144, line179, line296, line312, line144, line179, line297, line198, line144, line179, line298, line199, line144, line145,
   line205, line144, line145, line206, line144, line179, line299, line511, line144, line145, line484, line144, line179, line300, line512, line144,
   line179, line301, line495, line144, line145, line496, line144, line179, line302, line258, line144, line145, line259, line144, line179, line303,
   line497, line144, line145, line498, line144, line179, line304, line317, line144, line179, line305, line503, line144, line179, line309, line504,
   line144, line179, line311, line505, line144, line179, line313, line506, line144, line179, line314, line507, line144, line179, line316, line508,
   line144, line179, line318, line319, line144, line179, line323, line320, line144, line179, line325, line327, line144, line145, line513, line144,
   line145, line329, line144, line179, line328, line514, line144, line145, line515, line144, line145, line516, line144, line179, line330, line510,
   line144, line145, line517, line144, line271, line272, line273]

/-- The text of conf/haas_mill/grammar.json. -/
def haasMillWords : Str := List.flatten
  [line337, line338, line339, line340, line341, line342, line343, line344, line345, line346, line347, line348, line349, line350, line351, line352,
   line353, line349, line350, line351, line354, line355, line356, line357, line358, line359, line360, line361, line362, line363, line364, line365,
   line366, line367, line368, line369, line370, line371, line372, line373, line374, line375, line376, line368, line369, line370, line371, line372,
   line373, line374, line377, line378, line379, line380, line370, line381, line372, line382, line374, line383, line384, line379, line385, line370,
   line381, line372, line386, line374, line387, line388, line389, line380, line370, line371, line372, line390, line374, line391, line392, line389,
   line380, line370, line371, line372, line390, line374, line393, line394, line389, line380, line370, line371, line372, line390, line374, line395,
   line396, line389, line380, line370, line371, line372, line390, line374, line397, line398, line389, line380, line370, line371, line372, line390,
   line374, line399, line400, line389, line380, line370, line371, line401, line402, line374, line403, line404, line389, line380, line370, line371,
   line401, line405, line374, line406, line407, line389, line380, line370, line371, line401, line402, line374, line408, line409, line389, line380,
   line370, line371, line401, line405, line374, line410, line411, line389, line380, line370, line371, line401, line402, line374, line412, line413,
   line389, line380, line370, line371, line401, line405, line374, line414, line415, line389, line380, line370, line441, line372, line373, line374,
   line416, line417, line379, line380, line370, line371, line372, line418, line374, line419, line420, line379, line369, line370, line421, line372,
   line422, line374, line423, line424, line389, line380, line370, line371, line372, line373, line374, line425, line426, line389, line380, line370,
   line371, line401, line427, line374, line428, line429, line389, line380, line370, line371, line401, line427, line374, line430, line431, line389,
   line380, line370, line371, line401, line427, line374, line432, line433, line389, line380, line370, line381, line372, line373, line374, line434,
   line435, line379, line369, line370, line381, line372, line422, line374, line436, line437, line438, line385, line370, line381, line372, line382,
   line374, line439, line440, line379, line385, line370, line441, line372, line373, line374, line442, line443, line368, line369, line370, line371,
   line372, line373, line374, line444, line445, line389, line380, line370, line371, line401, line427, line374, line446, line447, line438, line385,
   line370, line381, line372, line373, line374, line448, line449, line379, line385, line370, line381, line372, line405, line374, line450, line451,
   line379, line385, line370, line381, line372, line405, line374, line452, line453, line379, line385, line370, line381, line372, line405, line374,
   line454, line455, line379, line380, line370, line381, line372, line373, line374, line456, line457, line389, line380, line370, line371, line401,
   line427, line374, line458, line459, line389, line380, line370, line371, line401, line427, line374, line460, line461, line389, line380, line370,
   line371, line401, line427, line374, line462, line463, line389, line380, line370, line371, line401, line427, line374, line464, line465, line389,
   line380, line370, line371, line401, line427, line374, line466, line467, line389, line380, line370, line371, line401, line427, line374, line468,
   line469, line438, line385, line370, line381, line372, line373, line470, line471, line472, line366, line367, line389, line380, line370, line441,
   line372, line373, line374, line375, line376, line389, line380, line370, line441, line372, line373, line374, line377, line378, line379, line380,
   line370, line381, line372, line382, line374, line383, line384, line379, line385, line370, line381, line372, line386, line374, line387, line388,
   line473, line385, line370, line371, line372, line390, line374, line391, line392, line473, line385, line370, line371, line372, line390, line374,
   line393, line394, line473, line385, line370, line371, line372, line390, line374, line395, line396, line473, line385, line370, line371, line372,
   line390, line374, line397, line398, line389, line380, line370, line371, line372, line390, line374, line399, line400, line473, line385, line370,
   line371, line401, line402, line374, line403, line404, line473, line385, line370, line371, line401, line405, line374, line406, line407, line473,
   line385, line370, line371, line401, line402, line374, line408, line409, line473, line385, line370, line371, line401, line405, line374, line410,
   line411, line473, line385, line370, line371, line401, line402, line374, line412, line413, line473, line385, line370, line371, line401, line405,
   line374, line414, line415, line368, line369, line370, line441, line372, line373, line374, line416, line417, line379, line385, line370, line474,
   line372, line418, line374, line419, line420, line379, line369, line370, line421, line372, line422, line374, line423, line424, line368, line369,
   line370, line441, line372, line373, line374, line425, line426, line473, line385, line370, line371, line401, line427, line374, line428, line429,
   line473, line385, line370, line371, line401, line427, line374, line430, line431, line473, line385, line370, line371, line401, line427, line374,
   line432, line433, line389, line380, line370, line381, line372, line373, line374, line434, line435, line379, line369, line370, line381, line372,
   line422, line374, line436, line437, line438, line385, line370, line381, line372, line382, line374, line439, line440, line379, line385, line370,
   line441, line372, line373, line374, line442, line443, line389, line380, line370, line441, line372, line373, line374, line444, line445, line473,
   line385, line370, line371, line401, line427, line374, line446, line447, line438, line385, line370, line381, line372, line373, line374, line448,
   line449, line379, line385, line370, line381, line372, line405, line374, line450, line451, line379, line385, line370, line381, line372, line405,
   line374, line452, line453, line379, line385, line370, line381, line372, line405, line374, line454, line455, line379, line380, line370, line381,
   line372, line373, line374, line456, line457, line473, line385, line370, line371, line401, line427, line374, line458, line459, line473, line385,
   line370, line371, line401, line427, line374, line460, line461, line473, line385, line370, line371, line401, line427, line374, line462, line463,
   line473, line385, line370, line371, line401, line427, line374, line464, line465, line473, line385, line370, line371, line401, line427, line374,
   line466, line467, line473, line385, line370, line371, line401, line427, line374, line468, line469, line438, line385, line370, line381, line372,
   line373, line470, line475, line139]

/-- The text of conf/haas_mill/gcode_groups.json. -/
def haasMillCodeGroups : Str := List.flatten
  [line0, line140, line141, line142, line143, line144, line145, line151, line144, line145, line152, line144, line145, line256, line144, line145,
   line257, line144, line145, line157, line144, line145, line158, line144, line145, line160, line144, line145, line188, line144, line145, line189,
   line144, line145, line191, line144, line145, line291, line144, line145, line164, line144, line145, line165, line144, line145, line166, line144,
   line145, line167, line144, line145, line168, line144, line145, line169, line144, line145, line170, line144, line145, line195, line144, line145,
   line476, line144, line145, line315, line144, line145, line478, line144, line145, line177, line144, line145, line518, line144, line145, line519,
   line144, line145, line520, line144, line145, line485, line144, line145, line479, line144, line145, line521, line144, line145, line522, line144,
   line179, line180, line181, line144, line145, line182, line144, line145, line183, line144, line145, line184, line144, line179, line197, line247,
   line144, line145, line248, line144, line145, line249, line144, line179, line275, line194, line144, line145, line176, line144, line179, line203,
   line204, line144, line145, line196, line144, line145, line312, line144, line179, line207, line208, line144, line145, line209, line144, line179,
   line210, line211, line144, line145, line212, line144, line145, line214, line144, line145, line523, line144, line179, line215, line262, line144,
   line145, line264, line144, line145, line265, line144, line145, line514, line144, line145, line524, line144, line179, line218, line172, line144,
   line145, line173, line144, line145, line175, line144, line145, line306, line144, line145, line222, line144, line145, line223, line144, line145,
   line224, line144, line145, line225, line144, line145, line226, line144, line145, line227, line144, line145, line310, line144, line145, line230,
   line144, line179, line221, line205, line144, line145, line206, line144, line179, line277, line162, line144, line145, line252, line144, line179,
   line231, line235, line144, line145, line236, line144, line145, line237, line144, line145, line238, line144, line145, line239, line144, line145,
   line240, line144, line145, line495, line144, line145, line496, line144, line145, line258, line336, line145, line259, line144, line145, line497,
   line144, line145, line498, line144, line145, line499, line144, line145, line500, line144, line145, line501, line144, line145, line317, line144,
   line145, line502, line144, line145, line503, line144, line145, line504, line144, line145, line505, line144, line145, line506, line144, line145,
   line507, line144, line145, line508, line144, line145, line319, line144, line145, line320, line509, line145, line321, line144, line145, line510,
   line336, line179, line241, line242, line144, line145, line245, line144, line179, line246, line201, line144, line145, line202, line144, line179,
   line261, line525, line144, line145, line526, line144, line271, line272, line139]

/-- The text of conf/haas_mill/mcode_groups.json. -/
def haasMillFunctionGroups : Str := List.flatten
  [line0, line1, line141, line142, line181, line144, line145, line182, line144, line145, line183, line144, line145, line159, line144, line179,
   line180, line184, line144, line145, line143, line144, line145, line146, line144, line179, line197, line185, line144, line145, line268, line144,
   line179, line275, line149, line144, line145, line150, line144, line145, line151, line144, line179, line200, line152, line144, line145, line155,
   line144, line179, line203, line256, line144, line145, line257, line144, line179, line207, line249, line144, line179, line210, line209, line144,
   line179, line215, line219, line144, line179, line218, line220, line144, line179, line221, line278, line144, line179, line277, line216, line144,
   line179, line231, line158, line144, line179, line279, line160, line144, line145, line283, line144, line179, line234, line187, line144, line145,
   line188, line144, line179, line241, line189, line144, line179, line246, line193, line144, line179, line250, line212, line144, line145, line214,
   line144, line179, line282, line252, line144, line145, line242, line144, line179, line284, line164, line144, line145, line243, line144, line179,
   line251, line165, line144, line145, line244, line144, line179, line255, line235, line144, line145, line245, line144, line179, line260, line236,
   line144, line145, line167, line144, line179, line261, line240, line144, line145, line202, line144, line179, line266, line172, line144, line145,
   line173, line144, line179, line285, line174, line144, line179, line286, line307, line144, line145, line308, line144, line179, line269, line222,
   line144, line145, line223, line144, line179, line270, line224, line144, line179, line287, line225, line144, line145, line226, line144, line179,
   line289, line310, line144, line179, line292, line229, line144, line145, line230, line144, line179, line293, line312, line144, line179, line294,
   line198, line144, line179, line295, line199, line144, line145, line205, line144, line145, line206, line336, line179, line296, line512, line144,
   line179, line297, line290, line144, line179, line298, line276, line144, line179, line299, line162, line144, line179, line300, line194, line144,
   line145, line176, line144, line179, line301, line511, line144, line145, line484, line144, line179, line302, line322, line144, line145, line324,
   line144, line179, line303, line527, line144, line145, line528, line144, line179, line304, line529, line144, line145, line530, line144, line179,
   line305, line531, line144, line145, line532, line144, line145, line533, line144, line145, line534, line144, line179, line309, line482, line144,
   line271, line272, line273]

/-- The text of conf/makino_mill/grammar.json. -/
def makinoMillWords : Str := List.flatten
  [line0, line1, line2, line3, line4, line5, line6, line7, line8, line9, line10, line11, line12, line13, line14, line15,
   line16, line12, line13, line14, line17, line18, line19, line20, line21, line22, line23, line24, line25, line26, line27, line28,
   line29, line30, line31, line32, line33, line34, line35, line36, line37, line38, line39, line31, line32, line33, line34, line35,
   line36, line37, line40, line41, line42, line43, line33, line44, line35, line45, line37, line46, line47, line42, line48, line33,
   line44, line35, line49, line37, line50, line51, line52, line43, line33, line34, line35, line53, line37, line54, line55, line52,
   line43, line33, line34, line35, line53, line37, line56, line57, line52, line43, line33, line34, line35, line53, line37, line58,
   line59, line52, line43, line33, line34, line35, line53, line37, line60, line61, line52, line43, line33, line34, line35, line53,
   line37, line62, line63, line52, line43, line33, line34, line64, line65, line37, line66, line67, line52, line43, line33, line34,
   line64, line68, line37, line69, line70, line52, line43, line33, line34, line64, line65, line37, line71, line72, line52, line43,
   line33, line34, line64, line68, line37, line73, line74, line52, line43, line33, line34, line64, line65, line37, line75, line76,
   line52, line43, line33, line34, line64, line68, line37, line77, line78, line31, line32, line33, line79, line35, line36, line37,
   line80, line81, line42, line43, line33, line34, line35, line82, line37, line83, line84, line42, line32, line33, line85, line35,
   line86, line37, line87, line88, line31, line32, line33, line79, line35, line36, line37, line89, line90, line52, line43, line33,
   line34, line64, line91, line37, line92, line93, line52, line43, line33, line34, line64, line91, line37, line94, line95, line52,
   line43, line33, line34, line64, line91, line37, line96, line97, line52, line43, line33, line44, line35, line36, line37, line98,
   line99, line42, line32, line33, line44, line35, line86, line37, line100, line101, line102, line48, line33, line44, line35, line45,
   line37, line103, line104, line42, line48, line33, line79, line35, line36, line37, line105, line106, line31, line32, line33, line34,
   line35, line36, line37, line107, line108, line52, line43, line33, line34, line64, line91, line37, line109, line110, line102, line48,
   line33, line44, line35, line36, line37, line111, line112, line42, line48, line33, line44, line35, line68, line37, line113, line114,
   line42, line48, line33, line44, line35, line68, line37, line115, line116, line42, line48, line33, line44, line35, line68, line37,
   line117, line118, line42, line43, line33, line44, line35, line36, line37, line119, line120, line52, line43, line33, line34, line64,
   line91, line37, line121, line122, line52, line43, line33, line34, line64, line91, line37, line123, line124, line52, line43, line33,
   line34, line64, line91, line37, line125, line126, line52, line43, line33, line34, line64, line91, line37, line127, line128, line52,
   line43, line33, line34, line64, line91, line37, line129, line130, line52, line43, line33, line34, line64, line91, line37, line131,
   line132, line102, line48, line33, line44, line35, line36, line133, line134, line135, line29, line30, line52, line43, line33, line79,
   line35, line36, line37, line38, line39, line52, line43, line33, line79, line35, line36, line37, line40, line41, line42, line43,
   line33, line44, line35, line45, line37, line46, line47, line42, line48, line33, line44, line35, line49, line37, line50, line51,
   line136, line48, line33, line34, line35, line53, line37, line54, line55, line136, line48, line33, line34, line35, line53, line37,
   line56, line57, line136, line48, line33, line34, line35, line53, line37, line58, line59, line136, line48, line33, line34, line35,
   line53, line37, line60, line61, line52, line43, line33, line34, line35, line53, line37, line62, line63, line136, line48, line33,
   line34, line64, line65, line37, line66, line67, line136, line48, line33, line34, line64, line68, line37, line69, line70, line136,
   line48, line33, line34, line64, line65, line37, line71, line72, line136, line48, line33, line34, line64, line68, line37, line73,
   line74, line136, line48, line33, line34, line64, line65, line37, line75, line76, line136, line48, line33, line34, line64, line68,
   line37, line77, line78, line31, line32, line33, line79, line35, line36, line37, line80, line81, line42, line48, line33, line137,
   line35, line82, line37, line83, line84, line42, line32, line33, line85, line35, line86, line37, line87, line88, line31, line32,
   line33, line79, line35, line36, line37, line89, line90, line136, line48, line33, line34, line64, line91, line37, line92, line93,
   line136, line48, line33, line34, line64, line91, line37, line94, line95, line136, line48, line33, line34, line64, line91, line37,
   line96, line97, line52, line43, line33, line44, line35, line36, line37, line98, line99, line42, line32, line33, line44, line35,
   line86, line37, line100, line101, line102, line48, line33, line44, line35, line45, line37, line103, line104, line42, line48, line33,
   line79, line35, line36, line37, line105, line106, line52, line43, line33, line79, line35, line36, line37, line107, line108, line136,
   line48, line33, line79, line64, line91, line37, line109, line110, line102, line48, line33, line44, line35, line36, line37, line111,
   line112, line42, line48, line33, line44, line35, line68, line37, line113, line114, line42, line48, line33, line44, line35, line68,
   line37, line115, line116, line42, line48, line33, line44, line35, line68, line37, line117, line118, line42, line43, line33, line44,
   line35, line36, line37, line119, line120, line136, line48, line33, line34, line64, line91, line37, line121, line122, line136, line48,
   line33, line34, line64, line91, line37, line123, line124, line136, line48, line33, line34, line64, line91, line37, line125, line126,
   line136, line48, line33, line34, line64, line91, line37, line127, line128, line136, line48, line33, line34, line64, line91, line37,
   line129, line130, line136, line48, line33, line34, line64, line91, line37, line131, line132, line102, line48, line33, line44, line35,
   line36, line133, line138, line139]

/-- The text of conf/makino_mill/gcode_groups.json. -/
def makinoMillCodeGroups : Str := List.flatten
  [line0, line140, line141, line142, line143, line144, line145, line149, line147, line145, line151, line144, line145, line152, line144, line145,
   line157, line144, line145, line159, line144, line145, line164, line144, line145, line165, line144, line145, line166, line144, line145, line167,
   line144, line145, line195, line144, line179, line180, line181, line144, line145, line182, line144, line145, line183, line144, line145, line184,
   line144, line179, line197, line247, line144, line145, line248, line144, line145, line249, line144, line179, line275, line194, line144, line145,
   line176, line144, line179, line210, line211, line144, line145, line212, line144, line145, line214, line144, line179, line215, line262, line144,
   line145, line265, line144, line179, line218, line172, line144, line145, line173, line144, line145, line175, line144, line145, line222, line144,
   line145, line223, line144, line145, line224, line144, line145, line225, line144, line145, line226, line144, line145, line226, line171, line145,
   line226, line163, line145, line227, line144, line145, line310, line144, line145, line228, line144, line145, line229, line144, line145, line230,
   line144, line179, line221, line205, line144, line145, line206, line144, line179, line277, line162, line144, line145, line252, line144, line179,
   line231, line235, line144, line145, line236, line144, line145, line237, line144, line145, line238, line144, line145, line239, line144, line145,
   line240, line144, line179, line234, line235, line147, line179, line241, line242, line144, line145, line243, line144, line145, line245, line144,
   line179, line246, line201, line144, line145, line202, line144, line179, line282, line267, line144, line145, line268, line144, line271, line272,
   line273]

/-- The text of conf/makino_mill/mcode_groups.json. -/
def makinoMillFunctionGroups : Str := List.flatten
  [line0, line1, line141, line142, line181, line144, line145, line182, line144, line145, line183, line144, line145, line159, line144, line145,
   line185, line144, line179, line180, line184, line144, line145, line143, line144, line145, line146, line144, line179, line197, line149, line144,
   line145, line150, line144, line145, line151, line144, line145, line217, line144, line179, line275, line152, line144, line179, line200, line155,
   line144, line179, line203, line256, line144, line179, line207, line257, line144, line179, line210, line274, line144, line145, line248, line144,
   line179, line215, line267, line144, line179, line218, line268, line144, line179, line221, line249, line144, line179, line277, line209, line144,
   line145, line219, line144, line145, line220, line144, line179, line231, line237, line144, line179, line279, line205, line144, line145, line206,
   line144, line179, line234, line280, line144, line271, line272, line273]

/-- The files of a control. -/
structure Texts where
  name : Str
  words : Str
  gcodes : Str
  mcodes : Str

/-- The directories of conf. -/
def texts : List Texts :=
  [⟨c!"fanuc_lathe_system_a", fanucLatheSystemAWords, fanucLatheSystemACodeGroups, fanucLatheSystemAFunctionGroups⟩,
   ⟨c!"fanuc_lathe_system_b", fanucLatheSystemAWords, fanucLatheSystemBCodeGroups, fanucLatheSystemAFunctionGroups⟩,
   ⟨c!"fanuc_lathe_system_c", fanucLatheSystemAWords, fanucLatheSystemCCodeGroups, fanucLatheSystemAFunctionGroups⟩,
   ⟨c!"fanuc_mill", fanucMillWords, fanucMillCodeGroups, fanucLatheSystemAFunctionGroups⟩,
   ⟨c!"fanuc_millturn_system_a", fanucLatheSystemAWords, fanucMillturnSystemACodeGroups, fanucLatheSystemAFunctionGroups⟩,
   ⟨c!"fanuc_millturn_system_b", fanucLatheSystemAWords, fanucMillturnSystemBCodeGroups, fanucLatheSystemAFunctionGroups⟩,
   ⟨c!"generic_lathe", genericLatheWords, genericLatheCodeGroups, genericLatheFunctionGroups⟩,
   ⟨c!"generic_mill", genericMillWords, genericMillCodeGroups, genericMillFunctionGroups⟩,
   ⟨c!"haas_lathe", haasLatheWords, haasLatheCodeGroups, haasLatheFunctionGroups⟩,
   ⟨c!"haas_mill", haasMillWords, haasMillCodeGroups, haasMillFunctionGroups⟩,
   ⟨c!"makino_mill", makinoMillWords, makinoMillCodeGroups, makinoMillFunctionGroups⟩]

set_option maxRecDepth 100000

theorem fanucLatheSystemAWords_tree : readJson fanucLatheSystemAWords = some (wordFile fanucLatheSystemAOperations fanucLatheSystemAImperial fanucLatheSystemAMetric) := spelt (by decide +kernel)

theorem fanucLatheSystemACodeGroups_tree : readJson fanucLatheSystemACodeGroups = some (groupFile fanucLatheSystemACodes) := spelt (by decide +kernel)

theorem fanucLatheSystemAFunctionGroups_tree : readJson fanucLatheSystemAFunctionGroups = some (groupFile fanucLatheSystemAFunctions) := spelt (by decide +kernel)

theorem fanucLatheSystemBCodeGroups_tree : readJson fanucLatheSystemBCodeGroups = some (groupFile fanucLatheSystemBCodes) := spelt (by decide +kernel)

theorem fanucLatheSystemCCodeGroups_tree : readJson fanucLatheSystemCCodeGroups = some (groupFile fanucLatheSystemCCodes) := spelt (by decide +kernel)

theorem fanucMillWords_tree : readJson fanucMillWords = some (wordFile fanucLatheSystemAOperations fanucMillImperial fanucMillMetric) := spelt (by decide +kernel)

theorem fanucMillCodeGroups_tree : readJson fanucMillCodeGroups = some (groupFile fanucMillCodes) := spelt (by decide +kernel)

theorem fanucMillturnSystemACodeGroups_tree : readJson fanucMillturnSystemACodeGroups = some (groupFile fanucMillturnSystemACodes) := spelt (by decide +kernel)

theorem fanucMillturnSystemBCodeGroups_tree : readJson fanucMillturnSystemBCodeGroups = some (groupFile fanucMillturnSystemBCodes) := spelt (by decide +kernel)

theorem genericLatheWords_tree : readJson genericLatheWords = some (wordFile fanucLatheSystemAOperations genericLatheImperial genericLatheMetric) := spelt (by decide +kernel)

theorem genericLatheCodeGroups_tree : readJson genericLatheCodeGroups = some (groupFile genericLatheCodes) := spelt (by decide +kernel)

theorem genericLatheFunctionGroups_tree : readJson genericLatheFunctionGroups = some (groupFile genericLatheFunctions) := spelt (by decide +kernel)

theorem genericMillWords_tree : readJson genericMillWords = some (wordFile fanucLatheSystemAOperations genericMillImperial genericMillMetric) := spelt (by decide +kernel)

theorem genericMillCodeGroups_tree : readJson genericMillCodeGroups = some (groupFile genericMillCodes) := spelt (by decide +kernel)

theorem genericMillFunctionGroups_tree : readJson genericMillFunctionGroups = some (groupFile genericMillFunctions) := spelt (by decide +kernel)

theorem haasLatheWords_tree : readJson haasLatheWords = some (wordFile fanucLatheSystemAOperations haasLatheImperial haasLatheMetric) := spelt (by decide +kernel)

theorem haasLatheCodeGroups_tree : readJson haasLatheCodeGroups = some (groupFile haasLatheCodes) := spelt (by decide +kernel)

theorem haasLatheFunctionGroups_tree : readJson haasLatheFunctionGroups = some (groupFile haasLatheFunctions) := spelt (by decide +kernel)

theorem haasMillWords_tree : readJson haasMillWords = some (wordFile fanucLatheSystemAOperations genericMillImperial fanucLatheSystemAMetric) := spelt (by decide +kernel)

theorem haasMillCodeGroups_tree : readJson haasMillCodeGroups = some (groupFile haasMillCodes) := spelt (by decide +kernel)

theorem haasMillFunctionGroups_tree : readJson haasMillFunctionGroups = some (groupFile haasMillFunctions) := spelt (by decide +kernel)

theorem makinoMillWords_tree : readJson makinoMillWords = some (wordFile fanucLatheSystemAOperations fanucMillImperial makinoMillMetric) := spelt (by decide +kernel)

theorem makinoMillCodeGroups_tree : readJson makinoMillCodeGroups = some (groupFile makinoMillCodes) := spelt (by decide +kernel)

theorem makinoMillFunctionGroups_tree : readJson makinoMillFunctionGroups = some (groupFile makinoMillFunctions) := spelt (by decide +kernel)

/-- The texts of the shipped files spell their trees. -/
theorem texts_read : List.Forall₂ (fun (k : Control) (t : Texts) => k.name = t.name ∧ readJson t.words = some k.words ∧
    readJson t.gcodes = some k.gcodes ∧ readJson t.mcodes = some k.mcodes) controls texts :=
  .cons ⟨rfl, fanucLatheSystemAWords_tree, fanucLatheSystemACodeGroups_tree, fanucLatheSystemAFunctionGroups_tree⟩
  (.cons ⟨rfl, fanucLatheSystemAWords_tree, fanucLatheSystemBCodeGroups_tree, fanucLatheSystemAFunctionGroups_tree⟩
  (.cons ⟨rfl, fanucLatheSystemAWords_tree, fanucLatheSystemCCodeGroups_tree, fanucLatheSystemAFunctionGroups_tree⟩
  (.cons ⟨rfl, fanucMillWords_tree, fanucMillCodeGroups_tree, fanucLatheSystemAFunctionGroups_tree⟩
  (.cons ⟨rfl, fanucLatheSystemAWords_tree, fanucMillturnSystemACodeGroups_tree, fanucLatheSystemAFunctionGroups_tree⟩
  (.cons ⟨rfl, fanucLatheSystemAWords_tree, fanucMillturnSystemBCodeGroups_tree, fanucLatheSystemAFunctionGroups_tree⟩
  (.cons ⟨rfl, genericLatheWords_tree, genericLatheCodeGroups_tree, genericLatheFunctionGroups_tree⟩
  (.cons ⟨rfl, genericMillWords_tree, genericMillCodeGroups_tree, genericMillFunctionGroups_tree⟩
  (.cons ⟨rfl, haasLatheWords_tree, haasLatheCodeGroups_tree, haasLatheFunctionGroups_tree⟩
  (.cons ⟨rfl, haasMillWords_tree, haasMillCodeGroups_tree, haasMillFunctionGroups_tree⟩
  (.cons ⟨rfl, makinoMillWords_tree, makinoMillCodeGroups_tree, makinoMillFunctionGroups_tree⟩
  (.nil)))))))))))

end NC.Shipped
