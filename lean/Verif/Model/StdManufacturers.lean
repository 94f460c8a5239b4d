import Verif.Model.Database
/-!
# The manufacturer table

Generated from src/uecho/std/manufacturers.c: one row per call of `uecho_database_addstandardmanufacture`, in the order of the file.
-/
namespace Uecho.Std

/-- `uecho_database_addstandardmanufactures` — src/uecho/std/manufacturers.c:23-260. -/
def manufacturers : List Manufacture := [
  ⟨0x000133#32, "afterFIT Co., Ltd."⟩,
  ⟨0x00002F#32, "AIPHONE CO., LTD."⟩,
  ⟨0x00011A#32, "ACCESS CO.,LTD."⟩,
  ⟨0x00002C#32, "AFT CO.,LTD"⟩,
  ⟨0x000068#32, "AISIN CORPORATION"⟩,
  ⟨0x000079#32, "Anritsu Engineering Co.,Ltd,"⟩,
  ⟨0x00007F#32, "ANRITSU CUSTOMER SUPPORT CO., LTD."⟩,
  ⟨0x000110#32, "ASUKA SOLUTION COMPANY LIMITED"⟩,
  ⟨0x000096#32, "Azbil Corporation"⟩,
  ⟨0x0000FD#32, "Bellnix Co.,LTD"⟩,
  ⟨0x0000CC#32, "Bosch Home Comfort Japan, Inc."⟩,
  ⟨0x00006F#32, "BUFFALO INC."⟩,
  ⟨0x0000B6#32, "Bunka Shutter Co., Ltd"⟩,
  ⟨0x000017#32, "Carrier Japan Corporation"⟩,
  ⟨0x0000D2#32, "CHOFUKOSAN.Co.Ltd"⟩,
  ⟨0x000088#32, "CHOFU SEISAKUSHO CO.,LTD."⟩,
  ⟨0x0000D5#32, "Choshu Industry Co., Ltd."⟩,
  ⟨0x0000A3#32, "Chubu Electric Power Grid Co.,Inc."⟩,
  ⟨0x000136#32, "Chuo Bussan Co.,Ltd."⟩,
  ⟨0x0000FB#32, "CICO CORPORATION"⟩,
  ⟨0x0000F8#32, "CIMX INITIATIVE INC."⟩,
  ⟨0x000123#32, "Contec Co., Ltd."⟩,
  ⟨0x000130#32, "COOLDESIGN Corporation"⟩,
  ⟨0x000067#32, "CORONA CORPORATION"⟩,
  ⟨0x00013B#32, "Crossdoor Inc."⟩,
  ⟨0x000143#32, "Deye Energy Japan Co., Ltd."⟩,
  ⟨0x00009C#32, "Diamond Electric Mfg.Co.,Ltd."⟩,
  ⟨0x000080#32, "DIAMOND&ZEBRA ELECTRIC MFG.CO.,LTD."⟩,
  ⟨0x000119#32, "DAIHEN Corporation"⟩,
  ⟨0x000008#32, "DAIKIN INDUSTRIES,LTD."⟩,
  ⟨0x000015#32, "Daikin Systems&Solutions Laboratory Ltd."⟩,
  ⟨0x000141#32, "DAIKO ELECTRIC CO.,LTD."⟩,
  ⟨0x00004F#32, "Daiwa House Industry co.,Ltd"⟩,
  ⟨0x000103#32, "Data Technology Inc."⟩,
  ⟨0x0000E3#32, "DDL Co.,Ltd"⟩,
  ⟨0x0000AD#32, "Delta Electronics (Japan), Inc."⟩,
  ⟨0x0000BE#32, "DENKEN Co.,Ltd."⟩,
  ⟨0x0000F4#32, "DENSO AIRCOOL CORPORATION"⟩,
  ⟨0x00003C#32, "DENSO Corporation"⟩,
  ⟨0x000109#32, "DENSO Co.,LTD."⟩,
  ⟨0x00012B#32, "DENSO WAVE INCORPORATED"⟩,
  ⟨0x000113#32, "EBARA JITSUGYO CO., LTD"⟩,
  ⟨0x000057#32, "ELIIYPower Co.,ltd"⟩,
  ⟨0x00012E#32, "Eneres Co.,Ltd."⟩,
  ⟨0x000041#32, "ENEGATE CO.,LTD."⟩,
  ⟨0x00010A#32, "ENERGY GAP CORPORATION"⟩,
  ⟨0x0000F3#32, "Energy Gateway, Inc"⟩,
  ⟨0x00013F#32, "Energy Pool Japan K.K."⟩,
  ⟨0x0000F2#32, "Energy Solutions Inc."⟩,
  ⟨0x000072#32, "Eneres Co.,Ltd."⟩,
  ⟨0x0000DD#32, "EneStone Corporation"⟩,
  ⟨0x000132#32, "EX4Energy, Inc."⟩,
  ⟨0x000055#32, "FAMILYNET JAPAN CORPORATION"⟩,
  ⟨0x0000F6#32, "Field Logic Inc."⟩,
  ⟨0x00012F#32, "FORMOSA BIO AND ENERGY CORP JAPAN"⟩,
  ⟨0x0000CB#32, "Fuji Electric Co.,Ltd"⟩,
  ⟨0x0000FC#32, "FUJI INDUSTRIAL CO.,Ltd."⟩,
  ⟨0x000051#32, "Fuji IT Co.,Ltd."⟩,
  ⟨0x00008A#32, "FUJITSU GENERAL LIMITED"⟩,
  ⟨0x00004E#32, "FUJITSU LIMITED"⟩,
  ⟨0x000090#32, "Fujitsu Component Limited"⟩,
  ⟨0x0000DE#32, "FUJIFILM Business Innovation Japan Corp"⟩,
  ⟨0x000097#32, "Future Technology Laboratories, Inc."⟩,
  ⟨0x00009B#32, "GASTAR Co.,Ltd"⟩,
  ⟨0x00008F#32, "Glamo Inc."⟩,
  ⟨0x000129#32, "GoodWe Japan K.K"⟩,
  ⟨0x000134#32, "GoodWe Technologies Co.,Ltd."⟩,
  ⟨0x00009F#32, "GS Yuasa International Ltd"⟩,
  ⟨0x00013A#32, "GUGEN,Inc."⟩,
  ⟨0x000122#32, "Hanwha Q CELLS Japan CO.,LTD."⟩,
  ⟨0x000001#32, "Hitachi, Ltd."⟩,
  ⟨0x000022#32, "Hitachi Global Life Solutions, Inc."⟩,
  ⟨0x000040#32, "Hitachi High-Tech Solutions Corporation"⟩,
  ⟨0x000044#32, "Hitachi Industrial Equipment Systems Co.,Ltd."⟩,
  ⟨0x0000E5#32, "Hitachi Power Solutions Co.,Ltd."⟩,
  ⟨0x0000E6#32, "Hokkaido Electrical Safety Services Foundation"⟩,
  ⟨0x0000B8#32, "Hokkaido Electric Power Network, Inc."⟩,
  ⟨0x0000BB#32, "Hokuriku Electric Power Transmission & Distribution Company"⟩,
  ⟨0x0000A1#32, "Honda R&D Co., Ltd."⟩,
  ⟨0x000115#32, "HUAWEI TECHNOLOGIES JAPAN K.K."⟩,
  ⟨0x0000B0#32, "idea co.,ltd. "⟩,
  ⟨0x0000AC#32, "IDEC COROPRATION"⟩,
  ⟨0x00013E#32, "i GRID SOLUTIONS Inc."⟩,
  ⟨0x00004D#32, "INABA DENKI SANGYO CO.,LTD."⟩,
  ⟨0x000056#32, "iND Co.,Ltd"⟩,
  ⟨0x0000ED#32, "INFINI Co. LTD"⟩,
  ⟨0x000124#32, "INTEC Inc."⟩,
  ⟨0x0000B1#32, "Internet Initiative Japan Inc."⟩,
  ⟨0x000087#32, "I-O DATA DEVICE,INC."⟩,
  ⟨0x00006B#32, "ISB Corporation"⟩,
  ⟨0x00010F#32, "Iwatani Corporation"⟩,
  ⟨0x000081#32, "IWATSU ELECTRIC CO., LTD."⟩,
  ⟨0x0000C3#32, "Japan Electric Meters Inspection Corporation"⟩,
  ⟨0x0000F7#32, "JCity,Inc."⟩,
  ⟨0x0000CA#32, "JSP CO.,LTD."⟩,
  ⟨0x0000D7#32, "Kaga Electronics co.,ltd."⟩,
  ⟨0x000077#32, "Kanagawa Institute of Technology"⟩,
  ⟨0x000063#32, "Kawamura Electric Inc."⟩,
  ⟨0x0000F0#32, "KANEKA CORPORATION"⟩,
  ⟨0x00010B#32, "KITANIHON ELECTRIC CABLE CO.,LTD."⟩,
  ⟨0x0000E8#32, "KOIZUMI LIGHTING TECHNOLOGY CORP."⟩,
  ⟨0x00003B#32, "KYOCERA Corporation"⟩,
  ⟨0x00008C#32, "Kyuden Technosystems Corporation"⟩,
  ⟨0x0000BF#32, "KYUSHU ELECTRIC POWER TRANSMISSION AND DISTRIBUTION CO.,INC."⟩,
  ⟨0x000140#32, "Landis+Gyr AG"⟩,
  ⟨0x0000F1#32, "Laplace Systems Co., Ltd."⟩,
  ⟨0x000135#32, "LinkJapan Inc."⟩,
  ⟨0x000125#32, "LiveSmart KK"⟩,
  ⟨0x000025#32, "LIXIL Corporation"⟩,
  ⟨0x0000E0#32, "Looop Inc"⟩,
  ⟨0x00010C#32, "MAX CO., LTD."⟩,
  ⟨0x000078#32, "Maxell, Ltd."⟩,
  ⟨0x000058#32, "Mediotec Corporation"⟩,
  ⟨0x000120#32, "Meisei electric co.,ltd."⟩,
  ⟨0x000083#32, "Melco Techno Yokohama Corporation"⟩,
  ⟨0x000006#32, "Mitsubishi Electric Corp."⟩,
  ⟨0x000034#32, "MITSUBISHI ELECTRIC ENGINEERING COMPANY LIMITED"⟩,
  ⟨0x000105#32, "Mitsubishi Electric Lighting Corporation"⟩,
  ⟨0x00012A#32, "Monochrome Inc."⟩,
  ⟨0x00011D#32, "mui Lab, Inc."⟩,
  ⟨0x0000D4#32, "Murata Manufacturing Co.,Ltd."⟩,
  ⟨0x000106#32, "Nature Inc."⟩,
  ⟨0x000009#32, "NEC Corp."⟩,
  ⟨0x000118#32, "NEC Magnus Communications, Ltd"⟩,
  ⟨0x000073#32, "NEC Platforms, Ltd."⟩,
  ⟨0x000091#32, "NEC Platforms, Ltd."⟩,
  ⟨0x0000E2#32, "NextDrive Inc."⟩,
  ⟨0x000104#32, "Next Energy & Resources Co., Ltd."⟩,
  ⟨0x0000B2#32, "NF Blossom Technologies, Inc."⟩,
  ⟨0x0000A5#32, "Nichibei Co., Ltd."⟩,
  ⟨0x00006C#32, "NICHICON CORPORATION"⟩,
  ⟨0x0000EB#32, "NICHICON (KAMEOKA) CORPORATION"⟩,
  ⟨0x000102#32, "NICHICON (KUSATSU) CORPORATION"⟩,
  ⟨0x000112#32, "NICHIEI INTEC CO., LTD"⟩,
  ⟨0x000071#32, "NIHON SANGYO CO.,LTD."⟩,
  ⟨0x0000DC#32, "NIHON TECHNO CO.,LTD."⟩,
  ⟨0x00013D#32, "NIPPON GAS CO.,LTD."⟩,
  ⟨0x00008D#32, "NIPPON TELEGRAPH AND TELEPHONE CORPORATION"⟩,
  ⟨0x000047#32, "NIPPON TELEGRAPH AND TELEPHONE EAST CORPORATION"⟩,
  ⟨0x000086#32, "NIPPON TELEGRAPH AND TELEPHONE WEST CORPORATION"⟩,
  ⟨0x000036#32, "NISSIN SYSTEMS CO., LTD."⟩,
  ⟨0x0000B7#32, "Nitto Kogyo Corporation"⟩,
  ⟨0x000054#32, "NORITZ CORP."⟩,
  ⟨0x00007C#32, "NSW Inc."⟩,
  ⟨0x0000A0#32, "NTT Advanced Technology Corporation"⟩,
  ⟨0x000023#32, "NTT COMWARE CORPORATION"⟩,
  ⟨0x000061#32, "NTT DATA INTELLILINK Corporation"⟩,
  ⟨0x0000E9#32, "NTT SMILE ENERGY,Inc."⟩,
  ⟨0x0000F5#32, "ODELIC CO., LTD."⟩,
  ⟨0x000012#32, "Oi Electric Co., Ltd"⟩,
  ⟨0x00006A#32, "OKAYA & CO., LTD."⟩,
  ⟨0x000114#32, "OkayaKiden Co.,Ltd."⟩,
  ⟨0x000137#32, "OkayaKiden Co.,Ltd."⟩,
  ⟨0x000048#32, "Oki Electric Industry Co., Ltd."⟩,
  ⟨0x000064#32, "OMRON SOCIAL SOLUTIONS CO.,LTD."⟩,
  ⟨0x00012C#32, "Onamba Co., Ltd."⟩,
  ⟨0x0000D8#32, "OSAKI DATATECH CO.,LTD."⟩,
  ⟨0x000052#32, "OSAKI ELECTRIC CO.,LTD."⟩,
  ⟨0x000127#32, "Paloma Co.,Ltd."⟩,
  ⟨0x00000B#32, "Panasonic Holdings Corporation"⟩,
  ⟨0x0000DA#32, "Panasonic Commercial Equipment Systems Co.,Ltd."⟩,
  ⟨0x0000FE#32, "Panasonic Ecology Systems Co.,Ltd."⟩,
  ⟨0x0000FA#32, "Plat'Home Co."⟩,
  ⟨0x000082#32, "PURPOSE CO.,LTD."⟩,
  ⟨0x000139#32, "RATOC Systems, Inc."⟩,
  ⟨0x000059#32, "Rinnai Corporation"⟩,
  ⟨0x000128#32, "SAIKOH ENGINEERING Co.,Ltd."⟩,
  ⟨0x00011E#32, "SAKAIGAWA CO., LTD"⟩,
  ⟨0x00011C#32, "SANDEN RETAIL SYSTEMS CORPORATION"⟩,
  ⟨0x00010E#32, "SANIX INCORPORATED"⟩,
  ⟨0x0000BA#32, "SankyoTateyama, Inc."⟩,
  ⟨0x0000C5#32, "SANWA SHUTTER CORPORATION"⟩,
  ⟨0x000093#32, "SATORI ELECTRIC CO.,LTD."⟩,
  ⟨0x000107#32, "SEIKO ELECTRIC CO.,LTD."⟩,
  ⟨0x00003A#32, "SEKISUI HOUSE, LTD."⟩,
  ⟨0x000005#32, "Sharp Corp"⟩,
  ⟨0x000131#32, "Shenzhen Eternalplanet Energy Pingshan Ltd."⟩,
  ⟨0x0000AE#32, "SHIKOKU ELECTRIC POWER CO.,INC."⟩,
  ⟨0x00002E#32, "SHIKOKU INSTRUMENTATION CO.,LTD"⟩,
  ⟨0x0000CE#32, "SHINDENGEN ELECTRIC MANUFACTURING CO.LTD."⟩,
  ⟨0x00010D#32, "Shizen Connect Inc."⟩,
  ⟨0x0000A8#32, "Smart Power System. Co,. Ltd."⟩,
  ⟨0x0000DF#32, "SMA Japan K.K."⟩,
  ⟨0x000100#32, "Smart Solar Corporation"⟩,
  ⟨0x00007E#32, "SMK Corporation"⟩,
  ⟨0x0000E1#32, "SoftBank Corp."⟩,
  ⟨0x00011B#32, "SolaX Power Network Technology (Zhe jiang) Co. , Ltd."⟩,
  ⟨0x000060#32, "Sony Computer Science Laboratories, Inc."⟩,
  ⟨0x00006E#32, "Soundvision co.,ltd."⟩,
  ⟨0x000108#32, "SOUSEI Technology Inc."⟩,
  ⟨0x000116#32, "Sungrow Power Supply Co., Ltd."⟩,
  ⟨0x000101#32, "Sunpot Co., Ltd"⟩,
  ⟨0x0000DB#32, "Suntech Power Japan Corporation"⟩,
  ⟨0x00003D#32, "SUMITOMO ELECTRIC INDUSTRIES, LTD."⟩,
  ⟨0x00003E#32, "SUMITOMO ELECTRIC NETWORKS, INC."⟩,
  ⟨0x00012D#32, "TACHIKAWA CORPORATION"⟩,
  ⟨0x000085#32, "TAKAOKA TOKO CO.,LTD"⟩,
  ⟨0x0000AF#32, "Takara Standard Co.,Ltd"⟩,
  ⟨0x0000E4#32, "technoeye Inc."⟩,
  ⟨0x0000FF#32, "TEPCO Energy Partner, Inc."⟩,
  ⟨0x0000EE#32, "TESSERA TECHNOLOGY INC."⟩,
  ⟨0x0000B5#32, "The Chugoku Electric Power Co., Ltd"⟩,
  ⟨0x00009A#32, "The Kansai Electric Power Co., Inc."⟩,
  ⟨0x0000CD#32, "TOCLAS CORPORATION"⟩,
  ⟨0x000126#32, "Togami Electric Mfg.co.,Ltd."⟩,
  ⟨0x0000F9#32, "TOHO ELECTRONICS INC."⟩,
  ⟨0x0000C2#32, "Tohoku Electric Meter Industry Co.,Inc"⟩,
  ⟨0x0000BC#32, "TohokuElectric Power Network Company,Incorporated"⟩,
  ⟨0x000099#32, "Tokyo Electric Power Company Holdings, Inc."⟩,
  ⟨0x0000B3#32, "TOPPERS Project, Inc."⟩,
  ⟨0x000111#32, "Topre Corporation"⟩,
  ⟨0x000016#32, "Toshiba Corporation"⟩,
  ⟨0x000043#32, "TOSHIBA DEVELOPMENT & ENGINEERING CORPORATION"⟩,
  ⟨0x0000EC#32, "Toshiba Energy Systems & Solutions Corporation"⟩,
  ⟨0x0000D9#32, "Toshiba IT & Control Systems Corporation"⟩,
  ⟨0x000069#32, "Toshiba Lifestyle Products & Services Corporation"⟩,
  ⟨0x00001B#32, "TOSHIBA LIGHTING & TECHNOLOGY CORPORATION"⟩,
  ⟨0x000035#32, "Toshiba Toko Meter Systems Co.,Ltd."⟩,
  ⟨0x000050#32, "TOTO LTD."⟩,
  ⟨0x0000EF#32, "TOYOTA INDUSTRIES CORPORATION"⟩,
  ⟨0x000121#32, "TOYOTA MOTOR CORPORATION"⟩,
  ⟨0x00011F#32, "TOYOTA TSUSHO CORPORATION"⟩,
  ⟨0x00005C#32, "Tranceboot Co.,Ltd."⟩,
  ⟨0x000138#32, "TRENDE Inc."⟩,
  ⟨0x000076#32, "TSP CO.,Ltd"⟩,
  ⟨0x0000D0#32, "TSUBAKIMOTO CHAIN CO."⟩,
  ⟨0x0000C1#32, "Tsuken Electric Ind Co., Ltd."⟩,
  ⟨0x000053#32, "Ubiquitous AI Corporation"⟩,
  ⟨0x000117#32, "WWB Corporation"⟩,
  ⟨0x000095#32, "Yamato Denki Co.,Ltd."⟩,
  ⟨0x000142#32, "Yanekara Inc"⟩,
  ⟨0x00009E#32, "YASKAWA ELECTRIC CORPORATION"⟩,
  ⟨0x00007A#32, "ZUKEN ELMIC,INC."⟩,
  ⟨0x0000B4#32, "4R Energy Corporation"⟩,
  ⟨0xFFFFFF#32, "Experimental"⟩,
  ⟨0xFFFFFE#32, "Undefined"⟩]

end Uecho.Std
